import Verif.Lemmas.IeeeSelf

/-! # One cell of a patch comparison in floating point is of moderate size -/

set_option linter.unusedSectionVars false

namespace Visqol
open Ieee
variable {F : Type} [Flt F] [Ieee F]

theorem nsimAvg_near {s t : Nat → Nat → ℝ} {ε : ℝ} (h : ∀ r c, |s r c - t r c| ≤ ε) : |nsimAvg s - nsimAvg t| ≤ ε := by
  rw [abs_le]
  constructor
  · have : nsimAvg (fun r c => t r c - ε) ≤ nsimAvg s := nsimAvg_mono fun r _ c _ => by have := (abs_le.mp (h r c)).1; linarith
    rw [nsimAvg_shift] at this
    linarith
  · have : nsimAvg (fun r c => s r c - ε) ≤ nsimAvg t := nsimAvg_mono fun r _ c _ => by have := (abs_le.mp (h r c)).2; linarith
    rw [nsimAvg_shift] at this
    linarith

/-- The windowed mean of levels of at most 4096. -/
theorem windowMean_near {x : Nat → Nat → F} {u : Nat → Nat → ℝ} (hx : ∀ r c, Is (x r c) (u r c)) (hu : ∀ r c, |u r c| ≤ 2 ^ 12) :
    ∃ m, Is (nsimAvg x) m ∧ |m - nsimAvg u| ≤ 36 * (2 ^ 12 / 2 ^ 51) ∧ |m| ≤ 4097 ∧ |nsimAvg u| ≤ 2 ^ 12 := by
  obtain ⟨⟨m, hm, hme⟩, ha⟩ := nsimAvg_acc (F := F) (by norm_num) (two_pow_mono (m := 12) (n := 900) (by norm_num)) hx hu
  refine ⟨m, hm, hme, ?_, ha⟩
  have := abs_add_le (m - nsimAvg u) (nsimAvg u)
  rw [sub_add_cancel] at this
  norm_num at *; linarith

/-- Levels of at most 4096: the computed windowed covariance is close to the exact one. -/
theorem cov_near {x y : Nat → Nat → F} {u v : Nat → Nat → ℝ} (hx : ∀ r c, Is (x r c) (u r c)) (hy : ∀ r c, Is (y r c) (v r c))
    (hu : ∀ r c, |u r c| ≤ 2 ^ 12) (hv : ∀ r c, |v r c| ≤ 2 ^ 12) :
    ∃ c, Is (nsimAvg (fun r c => x r c * y r c) - nsimAvg x * nsimAvg y) c ∧
      |c - (nsimAvg (fun r c => u r c * v r c) - nsimAvg u * nsimAvg v)| ≤ 1 / 2 ^ 19 ∧
      |nsimAvg (fun r c => u r c * v r c) - nsimAvg u * nsimAvg v| ≤ 2 ^ 25 := by
  have hb2 := two_pow_mono (m := 25) (n := 900) (by norm_num)
  have hb3 := two_pow_mono (m := 27) (n := 1000) (by norm_num)
  obtain ⟨m, hm, hme, hmb, hE⟩ := windowMean_near hx hu
  obtain ⟨k, hk, hke, hkb, hG⟩ := windowMean_near hy hv
  have huv : ∀ r c, |u r c * v r c| ≤ 2 ^ 24 := by
    intro r c
    rw [abs_mul]
    have := mul_le_mul (hu r c) (hv r c) (abs_nonneg _) (by norm_num)
    norm_num at this ⊢; linarith
  have hsq : ∀ r c, ∃ s, Is (x r c * y r c) s ∧ |s - u r c * v r c| ≤ 2 ^ 24 / 2 ^ 51 := by
    intro r c
    obtain ⟨s, hs, hse⟩ := rnd_err F (huv r c) (by norm_num) (le_trans (two_pow_mono (by norm_num)) hb3)
    exact ⟨s, (Is.mul (hx r c) (hy r c)).trans hs, hse⟩
  choose s hs hse using hsq
  have hsb : ∀ r c, |s r c| ≤ 2 ^ 25 := by
    intro r c
    have := abs_add_le (s r c - u r c * v r c) (u r c * v r c)
    rw [sub_add_cancel] at this
    refine this.trans ((add_le_add (hse r c) (huv r c)).trans (by norm_num))
  obtain ⟨⟨z, hz, hze⟩, hzb⟩ := nsimAvg_acc (F := F) (B := 2 ^ 25) (by norm_num) hb2 (x := fun r c => x r c * y r c) hs hsb
  have hst := nsimAvg_near hse
  have hP : |nsimAvg (fun r c => u r c * v r c)| ≤ 2 ^ 24 := by
    have h := nsimAvg_near (s := fun r c => u r c * v r c) (t := fun _ _ => 0) (ε := 2 ^ 24) (fun r c => by rw [sub_zero]; exact huv r c)
    have h0 : nsimAvg (fun _ _ => (0 : ℝ)) = 0 := by rw [nsimAvg_real']; simp
    rwa [h0, sub_zero] at h
  generalize nsimAvg (fun r c => u r c * v r c) = P at *
  generalize (nsimAvg s : ℝ) = S at *
  generalize (nsimAvg u : ℝ) = E at *
  generalize (nsimAvg v : ℝ) = G at *
  have hEG : |E * G| ≤ 2 ^ 24 := by
    rw [abs_mul]
    have := mul_le_mul hE hG (abs_nonneg _) (by norm_num)
    norm_num at this ⊢; linarith
  have hmk : |m * k| ≤ 2 ^ 25 := by
    rw [abs_mul]
    have := mul_le_mul hmb hkb (abs_nonneg _) (by norm_num)
    norm_num at this ⊢; linarith
  have hdiff : |m * k - E * G| ≤ 36 * (2 ^ 12 / 2 ^ 51) * 8193 := by
    have e1 : m * k - E * G = (m - E) * k + E * (k - G) := by ring
    rw [e1]
    refine (abs_add_le _ _).trans ?_
    rw [abs_mul, abs_mul]
    have i1 := mul_le_mul hme hkb (abs_nonneg _) (by norm_num)
    have i2 := mul_le_mul hE hke (abs_nonneg _) (by norm_num)
    norm_num at i1 i2 ⊢; linarith
  obtain ⟨q, hq, hqe⟩ := rnd_err F hmk (by norm_num) (le_trans (two_pow_mono (by norm_num)) hb3)
  obtain ⟨a1l, a1u⟩ := abs_le.mp hqe
  obtain ⟨a2l, a2u⟩ := abs_le.mp hze
  obtain ⟨a3l, a3u⟩ := abs_le.mp hdiff
  obtain ⟨a4l, a4u⟩ := abs_le.mp hzb
  obtain ⟨a5l, a5u⟩ := abs_le.mp hmk
  obtain ⟨a6l, a6u⟩ := abs_le.mp hst
  obtain ⟨a7l, a7u⟩ := abs_le.mp hP
  obtain ⟨a8l, a8u⟩ := abs_le.mp hEG
  have hzq : |z - q| ≤ 2 ^ 26 + 1 := by
    clear hb2 hb3
    rw [abs_le]
    norm_num at *
    constructor <;> linarith
  obtain ⟨c, hc, hce⟩ := rnd_err F hzq (by norm_num) (le_trans (by norm_num) hb3)
  obtain ⟨a9l, a9u⟩ := abs_le.mp hce
  clear hb2 hb3
  refine ⟨c, (Is.sub hz ((Is.mul hm hk).trans hq)).trans hc, ?_, ?_⟩
  · rw [abs_le]
    norm_num at *
    constructor <;> linarith
  · rw [abs_le]
    norm_num at *
    constructor <;> linarith

/-- The intensity term is at most about four. -/
theorem intensity_le {mx my : F} {m k : ℝ} (hm : Is mx m) (hk : Is my k) (hmb : |m| ≤ 4097) (hkb : |k| ≤ 4097) :
    ∃ i, Is ((mx * my * 2.0 + nsimC1) / (mx * mx + my * my + nsimC1)) i ∧ |i| ≤ 5 := by
  obtain ⟨c, hc, c1, c2⟩ := c1_bounds (F := F)
  have hbig : (2 : ℝ) ^ 60 ≤ 2 ^ 100 := two_pow_mono (by norm_num)
  have htiny : (1 : ℝ) / 2 ^ 200 ≤ 1 / 2 ^ 60 := div_le_div_of_nonneg_left (by norm_num) (by positivity) (two_pow_mono (by norm_num))
  have key : ∀ t : ℝ, |t| ≤ 2 ^ 60 → ∃ y, rnd F t = .fin y ∧ |y - t| ≤ |t| / 2 ^ 52 + 1 / 2 ^ 60 := by
    intro t ht
    obtain ⟨y, h1, h2⟩ := rnd_rel' F (ht.trans hbig)
    exact ⟨y, h1, h2.trans (add_le_add le_rfl htiny)⟩
  clear hbig htiny
  have ha : |m * m| ≤ 2 ^ 25 := by
    rw [abs_mul]; have := mul_le_mul hmb hmb (abs_nonneg _) (by norm_num); norm_num at this ⊢; linarith
  have hb : |k * k| ≤ 2 ^ 25 := by
    rw [abs_mul]; have := mul_le_mul hkb hkb (abs_nonneg _) (by norm_num); norm_num at this ⊢; linarith
  have hp : |m * k| ≤ 2 ^ 25 := by
    rw [abs_mul]; have := mul_le_mul hmb hkb (abs_nonneg _) (by norm_num); norm_num at this ⊢; linarith
  have hcs : 2 * |m * k| ≤ m * m + k * k := by
    rw [abs_mul]
    nlinarith [sq_nonneg (|m| - |k|), abs_mul_abs_self m, abs_mul_abs_self k]
  obtain ⟨a, ha1, ha2⟩ := key _ (ha.trans (by norm_num))
  obtain ⟨b, hb1, hb2⟩ := key _ (hb.trans (by norm_num))
  obtain ⟨p, hp1, hp2⟩ := key _ (hp.trans (by norm_num))
  have ha0 := rnd_nonneg ha1 (mul_self_nonneg m)
  have hb0 := rnd_nonneg hb1 (mul_self_nonneg k)
  rw [abs_of_nonneg (mul_self_nonneg m)] at ha ha2
  rw [abs_of_nonneg (mul_self_nonneg k)] at hb hb2
  have hmm := mul_self_nonneg m
  have hkk := mul_self_nonneg k
  have IA : Is (mx * mx) a := (Is.mul hm hm).trans ha1
  have IB : Is (my * my) b := (Is.mul hk hk).trans hb1
  have IP : Is (mx * my) p := (Is.mul hm hk).trans hp1
  generalize m * m = A at *
  generalize k * k = B at *
  have hq0 := abs_nonneg (m * k)
  obtain ⟨x1, x2⟩ := abs_le.mp ha2
  obtain ⟨x3, x4⟩ := abs_le.mp hb2
  have x5 : |p| ≤ |m * k| + (|m * k| / 2 ^ 52 + 1 / 2 ^ 60) := by
    have := abs_add_le (p - m * k) (m * k)
    rw [sub_add_cancel] at this
    linarith
  generalize |m * k| = Q at *
  have h2p : |p * 2| ≤ 2 ^ 28 := by
    rw [abs_mul]; norm_num at *; linarith
  obtain ⟨d, hd1, hd2⟩ := key _ (h2p.trans (by norm_num))
  have ID : Is (mx * my * 2.0) d := (Is.mul IP val_2).trans hd1
  have x6 : |d| ≤ 2 * |p| + (2 * |p| / 2 ^ 52 + 1 / 2 ^ 60) := by
    have h := abs_add_le (d - p * 2) (p * 2)
    rw [sub_add_cancel] at h
    have e : |p * 2| = 2 * |p| := by rw [abs_mul, abs_of_pos (by norm_num : (0 : ℝ) < 2), mul_comm]
    rw [e] at hd2 h
    linarith
  have x7 : |d + c| ≤ |d| + c := by
    have := abs_add_le d c
    rwa [abs_of_nonneg (by norm_num at c1; linarith : 0 ≤ c)] at this
  generalize |p| = P at *
  obtain ⟨n, hn1, hn2⟩ := key (d + c) (by norm_num at *; linarith)
  have x8 : |n| ≤ 2 * (A + B + c) := by
    have h := abs_add_le (n - (d + c)) (d + c)
    rw [sub_add_cancel] at h
    norm_num at *; linarith
  obtain ⟨g, hg1, hg2⟩ := key (a + b) (by rw [abs_of_nonneg (by linarith)]; norm_num at *; linarith)
  have hg0 := rnd_nonneg hg1 (by linarith)
  rw [abs_of_nonneg (by linarith : 0 ≤ a + b)] at hg2
  obtain ⟨x9, x10⟩ := abs_le.mp hg2
  obtain ⟨e, he1, he2⟩ := key (g + c) (by rw [abs_of_nonneg (by norm_num at c1; linarith)]; norm_num at *; linarith)
  rw [abs_of_nonneg (by norm_num at c1; linarith : 0 ≤ g + c)] at he2
  obtain ⟨x11, x12⟩ := abs_le.mp he2
  have x13 : (A + B + c) / 2 ≤ e := by norm_num at *; linarith
  have hABp : 0 < A + B + c := by norm_num at c1; linarith
  have hep : 0 < e := by linarith
  have hq : |n / e| ≤ 4 := by
    rw [abs_div, abs_of_pos hep, div_le_iff₀ hep]
    linarith
  obtain ⟨i, hi1, hi2⟩ := key _ (hq.trans (by norm_num))
  have IN : Is (mx * my * 2.0 + nsimC1) n := (Is.add ID hc).trans hn1
  have IE : Is (mx * mx + my * my + nsimC1) e := (Is.add ((Is.add IA IB).trans hg1) hc).trans he1
  refine ⟨i, (Is.div IN IE hep.ne').trans hi1, ?_⟩
  have h := abs_add_le (i - n / e) (n / e)
  rw [sub_add_cancel] at h
  generalize |n / e| = R at *
  norm_num at *; linarith

/-- The structure term is of moderate size. -/
theorem structure_le [Libm F] {cv va wa : F} {c v w C V W : ℝ} (hc : Is cv c) (hv : Is va v) (hw : Is wa w) (ec : |c - C| ≤ 1 / 2 ^ 19)
    (ev : |v - V| ≤ 1 / 2 ^ 19) (ew : |w - W| ≤ 1 / 2 ^ 19) (hV0 : 0 ≤ V) (hW0 : 0 ≤ W) (hV : V ≤ 2 ^ 25) (hW : W ≤ 2 ^ 25)
    (hC : C ^ 2 ≤ V * W) : ∃ s, Is ((cv + nsimC3) / strDenom (va * wa)) s ∧ |s| ≤ 31000 := by
  obtain ⟨d, hd, d1, d2⟩ := c3_near (F := F)
  have hbig : (2 : ℝ) ^ 60 ≤ 2 ^ 100 := two_pow_mono (by norm_num)
  have htiny : (1 : ℝ) / 2 ^ 200 ≤ 1 / 2 ^ 60 := div_le_div_of_nonneg_left (by norm_num) (by positivity) (two_pow_mono (by norm_num))
  have key : ∀ t : ℝ, |t| ≤ 2 ^ 60 → ∃ y, rnd F t = .fin y ∧ |y - t| ≤ |t| / 2 ^ 52 + 1 / 2 ^ 60 := by
    intro t ht
    obtain ⟨y, h1, h2⟩ := rnd_rel' F (ht.trans hbig)
    exact ⟨y, h1, h2.trans (add_le_add le_rfl htiny)⟩
  clear hbig htiny
  obtain ⟨v1, v2⟩ := abs_le.mp ev
  obtain ⟨w1, w2⟩ := abs_le.mp ew
  have hCb : |C| ≤ 2 ^ 25 := by
    apply abs_le_of_sq_le_sq _ (by norm_num)
    refine hC.trans ?_
    have := mul_le_mul hV hW hW0 (by norm_num)
    norm_num at this ⊢; linarith
  have hcb : |c| ≤ |C| + 1 / 2 ^ 19 := by
    have := abs_add_le (c - C) C
    rw [sub_add_cancel] at this
    linarith
  have hC0 := abs_nonneg C
  -- the numerator
  have hnb : |c + d| ≤ |C| + 6 / 10000 := by
    have := abs_add_le c d
    rw [abs_of_nonneg (by linarith : 0 ≤ d)] at this
    norm_num at *; linarith
  obtain ⟨n, hn1, hn2⟩ := key (c + d) (hnb.trans (by norm_num at *; linarith))
  have IN : Is (cv + nsimC3) n := (Is.add hc hd).trans hn1
  have hnn : |n| ≤ (|C| + 6 / 10000) * (1001 / 1000) := by
    have h := abs_add_le (n - (c + d)) (c + d)
    rw [sub_add_cancel] at h
    generalize |n - (c + d)| = t1 at *
    generalize |c + d| = t2 at *
    generalize |C| = t3 at *
    norm_num at *; linarith
  -- the denominator
  have hvb : |v| ≤ 2 ^ 26 := by rw [abs_le]; constructor <;> norm_num at * <;> linarith
  have hwb : |w| ≤ 2 ^ 26 := by rw [abs_le]; constructor <;> norm_num at * <;> linarith
  have hvw : |v * w| ≤ 2 ^ 52 := by
    rw [abs_mul]; have := mul_le_mul hvb hwb (abs_nonneg _) (by norm_num); norm_num at this ⊢; linarith
  obtain ⟨e, he1, he2⟩ := key _ (hvw.trans (by norm_num))
  have IE : Is (va * wa) e := (Is.mul hv hw).trans he1
  have heb : |e| ≤ 2 ^ 53 := by
    have h := abs_add_le (e - v * w) (v * w)
    rw [sub_add_cancel] at h
    norm_num at *; linarith
  have hden : ∃ g, Is (strDenom (va * wa) : F) g ∧ 39 / 100000 ≤ g ∧ ((0 ≤ e) → Real.sqrt e * (99 / 100) ≤ g) ∧
      (0 ≤ e → Real.sqrt e * (99 / 100) + 39 / 100000 ≤ g) := by
    unfold strDenom
    rw [Is.lt IE val_0]
    by_cases hneg : e < 0
    · rw [decide_eq_true hneg, if_pos rfl]
      exact ⟨d, hd, by linarith, fun h => absurd hneg (not_lt.mpr h), fun h => absurd hneg (not_lt.mpr h)⟩
    · rw [decide_eq_false hneg, if_neg (by simp)]
      have he0 := not_lt.mp hneg
      have hr0 := Real.sqrt_nonneg e
      have hrb : Real.sqrt e ≤ 2 ^ 27 := by
        rw [Real.sqrt_le_left (by norm_num)]
        rw [abs_of_nonneg he0] at heb
        refine heb.trans (by norm_num)
      have hsq := IE.sqrt he0
      generalize Real.sqrt e = R at *
      obtain ⟨r, hr1, hr2⟩ := key R (by rw [abs_of_nonneg hr0]; norm_num at *; linarith)
      rw [abs_of_nonneg hr0] at hr2
      obtain ⟨k1, k2⟩ := abs_le.mp hr2
      have hrn := rnd_nonneg hr1 hr0
      obtain ⟨g, hg1, hg2⟩ := key (r + d) (by rw [abs_of_nonneg (by linarith)]; norm_num at *; linarith)
      rw [abs_of_nonneg (by linarith : 0 ≤ r + d)] at hg2
      obtain ⟨k3, k4⟩ := abs_le.mp hg2
      have h1 : R * (99 / 100) + 39 / 100000 ≤ g := by norm_num at *; linarith
      exact ⟨g, (Is.add (hsq.trans hr1) hd).trans hg1, by linarith, fun _ => by linarith, fun _ => h1⟩
  obtain ⟨g, hg, g1, _, g3⟩ := hden
  have hgp : 0 < g := by linarith
  have hq : |n / g| ≤ 30000 := by
    rw [abs_div, abs_of_pos hgp, div_le_iff₀ hgp]
    by_cases hsmall : V ≤ 2 / 2 ^ 19 ∨ W ≤ 2 / 2 ^ 19
    · have hC11 : |C| ≤ 57 / 5 := by
        apply abs_le_of_sq_le_sq _ (by norm_num)
        refine hC.trans ?_
        rcases hsmall with h | h
        · have := mul_le_mul h hW hW0 (by norm_num)
          norm_num at this ⊢; linarith
        · have := mul_le_mul hV h hW0 (by norm_num)
          norm_num at this ⊢; linarith
      norm_num at *; linarith
    · rw [not_or, not_le, not_le] at hsmall
      obtain ⟨s1, s2⟩ := hsmall
      have hv2 : V / 2 ≤ v := by norm_num at *; linarith
      have hw2 : W / 2 ≤ w := by norm_num at *; linarith
      have hprod : V * W / 4 ≤ v * w := by
        have := mul_le_mul hv2 hw2 (by linarith) (by linarith)
        linarith
      have hlow : 2 / 2 ^ 19 * (2 / 2 ^ 19) ≤ V * W := mul_le_mul s1.le s2.le (by norm_num) hV0
      have hVW0 : 0 ≤ V * W := mul_nonneg hV0 hW0
      rw [abs_of_nonneg (by linarith : 0 ≤ v * w)] at he2
      obtain ⟨k1, k2⟩ := abs_le.mp he2
      have hel : V * W / 9 ≤ e := by norm_num at *; linarith
      have he0 : 0 ≤ e := by linarith
      have hCe : |C| / 3 ≤ Real.sqrt e := by
        apply Real.le_sqrt_of_sq_le
        rw [div_pow, sq_abs]
        linarith
      have := g3 he0
      norm_num at *; linarith
  obtain ⟨s, hs1, hs2⟩ := key _ (hq.trans (by norm_num))
  refine ⟨s, (Is.div IN hg hgp.ne').trans hs1, ?_⟩
  have h := abs_add_le (s - n / g) (n / g)
  rw [sub_add_cancel] at h
  generalize |n / g| = R at *
  norm_num at *; linarith

/-- Levels of at most 4096: one cell of the comparison is of moderate size. -/
theorem simCell_moderate [Libm F] {x y : Nat → Nat → F} (hx : ∀ r c, Pw 12 (x r c)) (hy : ∀ r c, Pw 12 (y r c)) : Bd 156000 (simCell x y) := by
  choose u hu hub using hx
  choose v hv hvb using hy
  obtain ⟨m, hm, _, hmb, _⟩ := windowMean_near hu hub
  obtain ⟨k, hk, _, hkb, _⟩ := windowMean_near hv hvb
  obtain ⟨c, hc, hce, _⟩ := cov_near hu hv hub hvb
  obtain ⟨a, ha, hae, hab⟩ := cov_near hu hu hub hub
  obtain ⟨b, hb, hbe, hbb⟩ := cov_near hv hv hvb hvb
  have hCS := nsim_cauchy u v
  have hV0 := nsim_var_nonneg u
  have hW0 := nsim_var_nonneg v
  obtain ⟨i, hi, hib⟩ := intensity_le hm hk hmb hkb
  obtain ⟨s, hs, hsb⟩ := structure_le hc ha hb hce hae hbe hV0 hW0 (le_of_abs_le hab) (le_of_abs_le hbb) (by
    rw [← sq_abs]
    have := pow_le_pow_left₀ (abs_nonneg _) hCS 2
    rwa [Real.sq_sqrt (mul_nonneg hV0 hW0)] at this)
  have hp : |i * s| ≤ 155000 := by
    rw [abs_mul]
    refine (mul_le_mul hib hsb (abs_nonneg _) (by norm_num)).trans (by norm_num)
  obtain ⟨z, hz, hze⟩ := rnd_within_one F (hp.trans (by norm_num))
  refine ⟨z, (Is.mul hi hs).trans hz, ?_⟩
  have h := abs_add_le (z - i * s) (i * s)
  rw [sub_add_cancel] at h
  linarith

/-- A total of `k` numbers of at most `S`, divided by `k`. -/
theorem mean_tight {a : F} {x S : ℝ} {k : ℕ} (h : Is a x) (hb : |x| ≤ grow S k) (h1 : 1 ≤ k) (h2 : k ≤ 2 ^ 32) (hS1 : 1 ≤ S) (hS2 : S ≤ 2 ^ 19) :
    Bd (S + 2 + 1) (a / Flt.ofNat k) := by
  have hk : (1 : ℝ) ≤ k := by exact_mod_cast h1
  have hk2 : (k : ℝ) ≤ 2 ^ 32 := by exact_mod_cast h2
  have hq : |x / k| ≤ S + 2 := by
    rw [abs_div, abs_of_nonneg (by linarith : (0 : ℝ) ≤ k), div_le_iff₀ (by linarith)]
    refine hb.trans ?_
    unfold grow
    have h3 : (k : ℝ) * S / 2 ^ 50 ≤ 2 := by
      rw [div_le_iff₀ (by norm_num)]
      have := mul_le_mul hk2 hS2 (by linarith) (by norm_num)
      refine this.trans (by norm_num)
    have h4 : (k : ℝ) ^ 2 * S / 2 ^ 50 = (k : ℝ) * S / 2 ^ 50 * k := by ring
    rw [h4]
    have := mul_le_mul_of_nonneg_right h3 (by linarith : (0 : ℝ) ≤ k)
    linarith
  obtain ⟨z, hz, hze⟩ := rnd_within_one F (x := x / k) (hq.trans (by norm_num at hS2 ⊢; linarith))
  refine ⟨z, (Is.div h (val_nat (h2.trans (by norm_num))) (by linarith)).trans hz, ?_⟩
  have h := abs_add_le (z - x / k) (x / k)
  rw [sub_add_cancel] at h
  linarith

/-- A library sum. -/
theorem sum_grow [Libm F] {l : List F} {S : ℝ} (hl : l.length ≤ 2 ^ 50) (hS1 : 1 ≤ S) (hS2 : S ≤ 2 ^ 900) (h : ∀ a ∈ l, Bd S a) :
    ∃ y, Is (Flt.sum l) y ∧ |y| ≤ grow S l.length := by
  have hx : ∃ xs : List ℝ, l.map val = xs.map .fin ∧ (∀ x ∈ xs, |x| ≤ S) ∧ |xs.sum| ≤ l.length * S := by
    clear hl
    induction l with
    | nil => exact ⟨[], rfl, by simp, by simp⟩
    | cons a l ih =>
      obtain ⟨xs, e, b, d⟩ := ih fun a ha => h a (List.mem_cons_of_mem _ ha)
      obtain ⟨x, hx, hb⟩ := h a List.mem_cons_self
      refine ⟨x :: xs, by rw [List.map_cons, List.map_cons, e, hx], fun y hy => ?_, ?_⟩
      · rcases List.mem_cons.mp hy with rfl | hy
        · exact hb
        · exact b y hy
      · rw [List.sum_cons, List.length_cons]
        push_cast
        have := abs_add_le x xs.sum
        linarith
  obtain ⟨xs, e, b, d⟩ := hx
  obtain ⟨y, hy, hye⟩ := Libm.sum_acc l xs S e hS1 hS2 b hl
  refine ⟨y, hy, ?_⟩
  have := abs_add_le (y - xs.sum) xs.sum
  rw [sub_add_cancel] at this
  unfold grow
  linarith

/-- Patches of prepared levels: band means of moderate size. -/
theorem measure_moderate [Libm F] {p : Profile} {ref deg : Mat F} {q : PatchSim F} (hr : ref.Pw 12) (hd : deg.Pw 12)
    (wr : ref.WF) (wd : deg.WF) (hs : ref.SameShape deg) (hn0 : 0 < ref.nrows) (hc0 : 0 < ref.ncols) (hcols : ref.ncols ≤ 2 ^ 32)
    (h : measurePatchSimilarity p ref deg = .ok q) : ∀ a ∈ q.freqBandMeans, Bd 160000 a := by
  have := measurePatchSimilarity_eq p ref deg wr wd hs hn0 hc0
  dsimp only at this
  rw [this] at h
  cases h
  intro a ha
  obtain ⟨r, hr', rfl⟩ := List.mem_map.mp ha
  have hcells : r.length = ref.ncols ∧ ∀ a ∈ r, Bd 156000 a := by
    obtain ⟨i, _, rfl⟩ := List.mem_map.mp hr'
    refine ⟨by simp, fun a ha => ?_⟩
    obtain ⟨j, _, rfl⟩ := List.mem_map.mp ha
    exact simCell_moderate (fun r c => hr.near i j r c) (fun r c => hd.near i j r c)
  obtain ⟨h1, h2⟩ := hcells
  obtain ⟨y, hy, hyb⟩ := sum_grow (by rw [h1]; exact hcols.trans (by norm_num)) (by norm_num)
    (le_trans (by norm_num) (two_pow_mono (m := 18) (by norm_num))) h2
  rw [h1] at hyb
  obtain ⟨z, hz, hzb⟩ := mean_tight hy hyb hc0 hcols (by norm_num) (by norm_num)
  exact ⟨z, hz, hzb.trans (by norm_num)⟩

end Visqol
