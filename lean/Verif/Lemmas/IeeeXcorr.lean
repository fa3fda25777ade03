import Verif.Lemmas.IeeeDft
import Verif.Lemmas.Xcorr

/-! # Floating point: the cross-correlation is accurate and the lag nearly optimal -/

set_option linter.unusedSectionVars false

namespace Visqol
open Ieee
open Finset (range)

variable {F : Type} [Flt F] [Ieee F]

theorem two_rpow_le {t : ℝ} (h0 : 0 ≤ t) (h1 : t ≤ 1) : (2 : ℝ) ^ t ≤ 1 + t := by
  have := rpow_one_add_le_one_add_mul_self (s := 1) (by norm_num) h0 h1
  norm_num at this
  exact this

/-- The exponent of an odd number is exact. -/
theorem frexpExp_odd [Libm F] {L : ℕ} (h1 : 3 ≤ L) (h2 : L ≤ 2 ^ 33) (hodd : L % 2 = 1) :
    frexpExp (Flt.ofNat L : F) = (Nat.log 2 L : ℤ) + 1 := by
  have hL : Is (Flt.ofNat L : F) L := val_nat (h2.trans (by norm_num))
  have hLpos : (3 : ℝ) ≤ L := by exact_mod_cast h1
  unfold frexpExp
  rw [Is.eq val_0 hL]
  have hne : ¬ (0 : ℝ) = L := by linarith
  simp only [hne, decide_false, Bool.false_eq_true, if_false]
  have ha : Is (Flt.abs (Flt.ofNat L : F)) L := by
    have := hL.abs
    rwa [abs_of_nonneg (by linarith)] at this
  have hL33 : (L : ℝ) ≤ 2 ^ 33 := by exact_mod_cast h2
  obtain ⟨y, hy, hy'⟩ := Libm.log2_acc _ _ ha (by linarith) (hL33.trans (by norm_num))
  generalize hk : Nat.log 2 L = k
  have hk1 : 2 ^ k ≤ L := by rw [← hk]; exact Nat.pow_log_le_self 2 (by omega)
  have hk2 : L < 2 ^ (k + 1) := by rw [← hk]; exact Nat.lt_pow_succ_log_self (by norm_num) L
  have hk33 : k ≤ 33 := by
    by_contra hc
    have : 2 ^ 34 ≤ 2 ^ k := Nat.pow_le_pow_right (by norm_num) (by omega)
    omega
  have hk0 : 1 ≤ k := by
    by_contra hc
    have : k = 0 := by omega
    subst this
    simp at hk2; omega
  have he1 : 2 ^ k % 2 = 0 := by
    obtain ⟨j, rfl⟩ : ∃ j, k = j + 1 := ⟨k - 1, by omega⟩
    rw [pow_succ]; omega
  have hk1' : 2 ^ k + 1 ≤ L := by omega
  have hk2' : L + 1 ≤ 2 ^ (k + 1) := by omega
  have hp : (0 : ℝ) < 2 ^ k := by positivity
  have hp1 : (1 : ℝ) ≤ 2 ^ k := one_le_pow₀ (by norm_num)
  have hp33 : (2 : ℝ) ^ k ≤ 2 ^ 33 := two_pow_mono hk33
  have hlog : ∀ c : ℝ, 0 < c → Real.logb 2 (2 ^ k * c) = k + Real.logb 2 c := by
    intro c hc
    rw [Real.logb_mul (by positivity) hc.ne', Real.logb_pow, Real.logb_self_eq_one (by norm_num), mul_one]
  have hlo : (k : ℝ) + 1 / 2 ^ k ≤ Real.logb 2 L := by
    have g1 : Real.logb 2 (2 ^ k * (1 + 1 / 2 ^ k)) ≤ Real.logb 2 L := by
      refine Real.logb_le_logb_of_le (by norm_num) (by positivity) ?_
      rw [mul_add, mul_one, mul_one_div, div_self hp.ne']
      exact_mod_cast hk1'
    rw [hlog _ (by positivity)] at g1
    have g2 : 1 / 2 ^ k ≤ Real.logb 2 (1 + 1 / (2 : ℝ) ^ k) := by
      rw [Real.le_logb_iff_rpow_le (by norm_num) (by positivity)]
      exact two_rpow_le (by positivity) (by rw [div_le_one hp]; exact hp1)
    linarith
  have hhi : Real.logb 2 L ≤ (k : ℝ) + 1 - 1 / 2 ^ (k + 1) := by
    have hq : (0 : ℝ) < 2 ^ (k + 1) := by positivity
    have hq1 : (2 : ℝ) ≤ 2 ^ (k + 1) := by rw [pow_succ]; linarith
    have ht1 : 1 / (2 : ℝ) ^ (k + 1) ≤ 1 / 2 := one_div_le_one_div_of_le (by norm_num) hq1
    have ht0 : 0 < 1 / (2 : ℝ) ^ (k + 1) := by positivity
    have g1 : Real.logb 2 L ≤ Real.logb 2 (2 ^ k * (2 * (1 - 1 / 2 ^ (k + 1)))) := by
      refine Real.logb_le_logb_of_le (by norm_num) (by linarith) ?_
      have e : (2 : ℝ) ^ k * (2 * (1 - 1 / 2 ^ (k + 1))) = 2 ^ (k + 1) - 1 := by
        rw [← mul_assoc, ← pow_succ, mul_sub, mul_one, mul_one_div, div_self hq.ne']
      rw [e]
      have : (L : ℝ) + 1 ≤ 2 ^ (k + 1) := by exact_mod_cast hk2'
      linarith
    rw [hlog _ (by linarith)] at g1
    have g2 : Real.logb 2 (2 * (1 - 1 / (2 : ℝ) ^ (k + 1))) ≤ 1 - 1 / 2 ^ (k + 1) := by
      rw [Real.logb_le_iff_le_rpow (by norm_num) (by linarith), Real.rpow_sub (by norm_num), Real.rpow_one]
      generalize 1 / (2 : ℝ) ^ (k + 1) = t at *
      rw [le_div_iff₀ (by positivity)]
      have := two_rpow_le ht0.le (by linarith)
      have h4 : (1 - t) * (2 : ℝ) ^ t ≤ (1 - t) * (1 + t) := mul_le_mul_of_nonneg_left this (by linarith)
      nlinarith
    linarith
  have hs1 : (1 : ℝ) / 2 ^ 40 < 1 / 2 ^ k := one_div_lt_one_div_of_lt hp (hp33.trans_lt (by norm_num))
  have hs2 : (1 : ℝ) / 2 ^ 40 < 1 / 2 ^ (k + 1) := one_div_lt_one_div_of_lt (by positivity) (by
    rw [pow_succ]
    calc (2 : ℝ) ^ k * 2 ≤ 2 ^ 33 * 2 := by linarith
      _ < 2 ^ 40 := by norm_num)
  have hy1 := (abs_le.mp hy').1
  have hy2 := (abs_le.mp hy').2
  have hfloor : ⌊y⌋ = (k : ℤ) := by
    rw [Int.floor_eq_iff]
    push_cast
    constructor <;> linarith
  have hfl : Is (Flt.floor (Flt.log2 (Flt.abs (Flt.ofNat L : F)))) ((k : ℤ) : ℝ) := by
    show val _ = _
    rw [Libm.floor_val _ _ hy, hfloor, rnd_int F (by rw [abs_of_nonneg (by omega)]; omega)]
  have hadd : val (Flt.floor (Flt.log2 (Flt.abs (Flt.ofNat L : F))) + (1.0 : F)) = .fin (((k : ℤ) + 1 : ℤ) : ℝ) := by
    rw [hfl.add val_1]
    rw [← rnd_int F (k := (k : ℤ) + 1) (by rw [abs_of_nonneg (by omega)]; omega)]
    push_cast; rfl
  rw [Libm.toI32_val _ _ hadd, realToInt_intCast (by omega) (by omega)]

/-- One complex product. -/
theorem cmul_acc {a b : Cpx F} {z w : ℂ} (ha1 : Is a.re z.re) (ha2 : Is a.im z.im) (hb1 : Is b.re w.re) (hb2 : Is b.im w.im)
    (hz : ‖z‖ ≤ 2 ^ 80) (hw : ‖w‖ ≤ 2 ^ 80) :
    ∃ c : ℂ, Is (a.mul b).re c.re ∧ Is (a.mul b).im c.im ∧ ‖c - z * w‖ ≤ 1 / 2 ^ 48 * (‖z‖ * ‖w‖) + 1 / 2 ^ 150 := by
  have hQ0 : 0 ≤ ‖z‖ * ‖w‖ := mul_nonneg (norm_nonneg _) (norm_nonneg _)
  have hQ : ‖z‖ * ‖w‖ ≤ 2 ^ 160 := by
    calc ‖z‖ * ‖w‖ ≤ 2 ^ 80 * 2 ^ 80 := mul_le_mul hz hw (norm_nonneg _) (by positivity)
      _ = 2 ^ 160 := by rw [← pow_add]
  have ht := tau_le
  have ht0 := tau_pos
  have part : ∀ u v : ℝ, |u| ≤ ‖z‖ → |v| ≤ ‖w‖ → ∃ p, rnd F (u * v) = .fin p ∧ |p - u * v| ≤ ‖z‖ * ‖w‖ / 2 ^ 52 + tau ∧ |u * v| ≤ ‖z‖ * ‖w‖ := by
    intro u v hu hv
    have g : |u * v| ≤ ‖z‖ * ‖w‖ := by rw [abs_mul]; exact mul_le_mul hu hv (abs_nonneg _) (norm_nonneg _)
    obtain ⟨p, hp, hpe⟩ := rnd_tau F (x := u * v) ((g.trans hQ).trans (two_pow_mono (by norm_num)))
    exact ⟨p, hp, hpe.trans (add_le_add (div_le_div_of_nonneg_right g (by positivity)) le_rfl), g⟩
  have comb : ∀ (p q u v : ℝ), |p - u| ≤ ‖z‖ * ‖w‖ / 2 ^ 52 + tau → |q - v| ≤ ‖z‖ * ‖w‖ / 2 ^ 52 + tau → |u| ≤ ‖z‖ * ‖w‖ →
      |v| ≤ ‖z‖ * ‖w‖ → ∃ r, rnd F (p + q) = .fin r ∧ |r - (u + v)| ≤ 5 * (‖z‖ * ‖w‖ / 2 ^ 52) + 4 * tau := by
    intro p q u v h1 h2 h3 h4
    generalize hQe : ‖z‖ * ‖w‖ = Q at *
    have hq : Q / 2 ^ 52 ≤ Q / 4 := div_le_div_of_nonneg_left hQ0 (by norm_num) (by norm_num)
    have e1 : |p + q - (u + v)| ≤ 2 * (Q / 2 ^ 52) + 2 * tau := by
      have := abs_add_le (p - u) (q - v)
      rw [show p + q - (u + v) = p - u + (q - v) by ring]
      linarith
    have e2 : |p + q| ≤ 3 * Q + 2 * tau := by
      have g := abs_add_le (p + q - (u + v)) (u + v)
      rw [sub_add_cancel] at g
      have := abs_add_le u v
      linarith
    have hb : |p + q| ≤ 2 ^ 200 := by
      refine e2.trans ?_
      calc 3 * Q + 2 * tau ≤ 3 * 2 ^ 160 + 2 * (1 / 2 ^ 200) := by linarith
        _ ≤ 2 ^ 200 := by norm_num
    obtain ⟨r, hr, hre⟩ := rnd_tau F hb
    refine ⟨r, hr, ?_⟩
    have g := abs_add_le (r - (p + q)) (p + q - (u + v))
    rw [sub_add_sub_cancel] at g
    have g3 : |p + q| / 2 ^ 52 ≤ (3 * Q + 2 * tau) / 2 ^ 52 := div_le_div_of_nonneg_right e2 (by positivity)
    have g4 : (3 * Q + 2 * tau) / 2 ^ 52 = 3 * (Q / 2 ^ 52) + 2 * tau / 2 ^ 52 := by ring
    have g5 : 2 * tau / 2 ^ 52 ≤ tau := by
      rw [div_le_iff₀ (by positivity)]
      have : (2 : ℝ) ≤ 2 ^ 52 := by norm_num
      nlinarith
    linarith
  obtain ⟨p1, e1, d1, b1⟩ := part z.re w.re (Complex.abs_re_le_norm _) (Complex.abs_re_le_norm _)
  obtain ⟨p2, e2, d2, b2⟩ := part z.im w.im (Complex.abs_im_le_norm _) (Complex.abs_im_le_norm _)
  obtain ⟨p3, e3, d3, b3⟩ := part z.re w.im (Complex.abs_re_le_norm _) (Complex.abs_im_le_norm _)
  obtain ⟨p4, e4, d4, b4⟩ := part z.im w.re (Complex.abs_im_le_norm _) (Complex.abs_re_le_norm _)
  obtain ⟨r1, f1, g1⟩ := comb p1 (-p2) (z.re * w.re) (-(z.im * w.im)) d1 (by rw [← neg_sub', abs_neg]; exact d2) b1 (by rw [abs_neg]; exact b2)
  obtain ⟨r2, f2, g2⟩ := comb p3 p4 _ _ d3 d4 b3 b4
  refine ⟨⟨r1, r2⟩, ?_, ?_, ?_⟩
  · show val (a.re * b.re - a.im * b.im) = _
    have m1 : Is (a.re * b.re) p1 := by show val _ = _; rw [ha1.mul hb1]; exact e1
    have m2 : Is (a.im * b.im) p2 := by show val _ = _; rw [ha2.mul hb2]; exact e2
    rw [m1.sub m2, sub_eq_add_neg]; exact f1
  · show val (a.re * b.im + a.im * b.re) = _
    have m1 : Is (a.re * b.im) p3 := by show val _ = _; rw [ha1.mul hb2]; exact e3
    have m2 : Is (a.im * b.re) p4 := by show val _ = _; rw [ha2.mul hb1]; exact e4
    rw [m1.add m2]; exact f2
  · have g := Complex.norm_le_abs_re_add_abs_im ((⟨r1, r2⟩ : ℂ) - z * w)
    rw [Complex.sub_re, Complex.sub_im, Complex.mul_re, Complex.mul_im] at g
    dsimp only at g
    rw [← sub_eq_add_neg] at g1
    generalize ‖z‖ * ‖w‖ = Q at *
    have e : 1 / 2 ^ 48 * Q = 16 * (Q / 2 ^ 52) := by ring
    have hq0 : 0 ≤ Q / 2 ^ 52 := by positivity
    have t1 : 8 * tau ≤ 1 / 2 ^ 150 := by
      have : 8 * ((1 : ℝ) / 2 ^ 200) ≤ 1 / 2 ^ 150 := by norm_num
      linarith
    rw [e]
    generalize Q / 2 ^ 52 = q at *
    generalize (1 : ℝ) / 2 ^ 150 = v at *
    linarith only [g, g1, g2, t1, hq0]

variable [RustFft F] [AccurateFft F]

theorem xcorrPoints_lt {n : ℕ} (h : 1 ≤ n) : xcorrPoints n < 4 * n := by
  unfold xcorrPoints
  have := Nat.pow_log_le_self 2 (show 2 * n - 1 ≠ 0 by omega)
  rw [pow_succ]; omega

/-- The correlation of the padded values. -/
theorem dft_circCorr {P : ℕ} (hP : 0 < P) (x1 x2 : List ℝ) (m : ℕ) :
    dft P 1 (fun k => dft P (-1) (seqC x1) k * (starRingEnd ℂ) (dft P (-1) (seqC x2) k)) m = P * ((circCorr x1 x2 P m : ℝ) : ℂ) := by
  have h := dft_correlation hP (seqC x1) (seqC x2) m
  have e : dft P 1 (fun k => dft P (-1) (seqC x1) k * (starRingEnd ℂ) (dft P (-1) (seqC x2) k)) m =
      ∑ k ∈ range P, ((∑ a ∈ range P, seqC x1 a * rootE P (-1 * (k * a))) *
        (starRingEnd ℂ) (∑ b ∈ range P, seqC x2 b * rootE P (-1 * (k * b)))) * rootE P (k * m) := by
    unfold dft
    refine Finset.sum_congr rfl fun k _ => ?_
    congr 2; ring
  rw [e, h]
  congr 1
  unfold circCorr seqC
  push_cast
  refine Finset.sum_congr rfl fun a _ => Finset.sum_congr rfl fun b _ => ?_
  split <;> simp

/-- The correlation vector, entry by entry. -/
theorem corr_acc [Libm F] {p : Profile} {s1 s2 : List F} {x1 x2 : List ℝ} (hv1 : Vals s1 x1) (hv2 : Vals s2 x2) {n : ℕ}
    (hn : n = max s1.length s2.length) (h9 : 9 ≤ n) (h24 : n ≤ 2 ^ 24) (hA1 : nrm n (seqC x1) ≤ 2 ^ 40) (hA2 : nrm n (seqC x2) ≤ 2 ^ 40) :
    ∃ v vs, inverseFftPointwiseProduct p s1 s2 = .ok v ∧ v.length = xcorrPoints n ∧ Vals v vs ∧
      ∀ m < xcorrPoints n, |vs.getD m 0 - circCorr x1 x2 (xcorrPoints n) m| ≤
        4 * Real.sqrt n * ((nrm n (seqC x1) + 1) * (nrm n (seqC x2) + 1)) / 2 ^ 40 := by
  have hl1 := hv1.length
  have hl2 := hv2.length
  unfold inverseFftPointwiseProduct
  simp only [resize_length, ← hn]
  rw [usub_of_le (by omega)]
  simp only [ok_bind]
  rw [show n * 2 - 1 = 2 * n - 1 by omega, frexpExp_odd (by omega) (by omega) (by omega)]
  have hlog : Nat.log 2 (2 * n - 1) < 63 := Nat.log_lt_of_lt_pow (by omega) (by omega)
  have hp : pow2 p ((Nat.log 2 (2 * n - 1) : ℤ) + 1) = .ok (xcorrPoints n) := by
    unfold pow2 xcorrPoints
    rw [if_pos (by constructor <;> omega)]
    congr 2
  rw [hp]
  have h32 := xcorrPoints_ge32 h9
  have hm : FftManager.new p (xcorrPoints n) = .ok ⟨xcorrPoints n, xcorrPoints n⟩ := by
    unfold FftManager.new
    have := C41_exact_on_powers p (Nat.log 2 (2 * n - 1) + 1) (by omega)
    unfold xcorrPoints at *
    rw [this]
    simp only [ok_bind]
    congr 2
    omega
  simp only [ok_bind, hm]
  have hP2 := xcorrPoints_ge (n := n) (by omega)
  have hP4 := xcorrPoints_lt (n := n) (by omega)
  have hP26 : xcorrPoints n ≤ 2 ^ 26 := by omega
  clear hp hm hlog
  generalize hPP : xcorrPoints n = P at *
  unfold fftPointwiseProduct forward1dFromPoints
  simp only [resize_length]
  rw [usub_of_le (by omega)]
  simp only [ok_bind]
  -- the two forward transforms
  have hpad : ∀ xs : List ℝ, xs.length ≤ n → nrm P (seqC xs) = nrm n (seqC xs) := fun xs hx =>
    nrm_zero_pad (by omega) fun k hk => seqC_beyond _ (by omega)
  have fwd : ∀ (s : List F) (x : List ℝ), Vals s x → s.length ≤ n → nrm n (seqC x) ≤ 2 ^ 40 →
      ∃ Y, CVals (forward1d (⟨P, P⟩ : FftManager) (resize s n 0.0 ++ List.replicate (P - n) (0.0 : F))) Y ∧
        nrm P (fun k => Y k - dft P (-1) (seqC x) k) ≤ Real.sqrt P * (nrm n (seqC x) + 1) / 2 ^ 40 := by
    intro s x hv hl hA
    have h1 := (hv.resize hl).append_zeros (P - n)
    have hs : seqC (resize x n 0 ++ List.replicate (P - n) 0) = seqC x := by
      rw [seqC_append_zeros, seqC_resize _ (hv.length ▸ hl)]
    have h2 := forward1d_acc (m := ⟨P, P⟩) h1 (by simp [resize_length]; omega) (by show 1 ≤ P; omega) (by show P ≤ 2 ^ 40; omega) (by
      rw [hs, hpad _ (hv.length ▸ hl)]
      exact hA.trans (two_pow_mono (by norm_num)))
    rw [hs] at h2
    simp only [hpad x (hv.length ▸ hl)] at h2
    exact h2
  obtain ⟨Y1, hY1, hE1⟩ := fwd s1 x1 hv1 (by omega) hA1
  obtain ⟨Y2, hY2, hE2⟩ := fwd s2 x2 hv2 (by omega) hA2
  have hlen1 := forward1d_length (⟨P, P⟩ : FftManager) (resize s1 n 0.0 ++ List.replicate (P - n) (0.0 : F))
  have hlen2 := forward1d_length (⟨P, P⟩ : FftManager) (resize s2 n 0.0 ++ List.replicate (P - n) (0.0 : F))
  generalize forward1d (⟨P, P⟩ : FftManager) (resize s1 n 0.0 ++ List.replicate (P - n) (0.0 : F)) = f1 at *
  generalize forward1d (⟨P, P⟩ : FftManager) (resize s2 n 0.0 ++ List.replicate (P - n) (0.0 : F)) = f2 at *
  simp only at hlen1 hlen2
  have hP32 : (32 : ℝ) ≤ P := by exact_mod_cast h32
  have hr5 : 5 ≤ Real.sqrt P := Real.le_sqrt_of_sq_le (by norm_num; linarith)
  have hsq : Real.sqrt P * Real.sqrt P = P := Real.mul_self_sqrt (Nat.cast_nonneg _)
  have hrb : Real.sqrt P ≤ 2 ^ 13 := by
    have : (P : ℝ) ≤ 2 ^ 26 := by exact_mod_cast hP26
    nlinarith
  have hr2n : Real.sqrt P ≤ 2 * Real.sqrt n := by
    have e : 2 * Real.sqrt (n : ℝ) = Real.sqrt (4 * n) := by
      rw [Real.sqrt_mul (by norm_num), show (4 : ℝ) = 2 ^ 2 by norm_num, Real.sqrt_sq (by norm_num)]
    rw [e]
    refine Real.sqrt_le_sqrt ?_
    exact_mod_cast hP4.le
  have hDn : ∀ x : List ℝ, x.length ≤ n → nrm P (dft P (-1) (seqC x)) = Real.sqrt P * nrm n (seqC x) := by
    intro x hx
    rw [parseval_fwd (by omega), hpad x hx]
  have hYn : ∀ (Y : ℕ → ℂ) (x : List ℝ), x.length ≤ n → nrm P (fun k => Y k - dft P (-1) (seqC x) k) ≤ Real.sqrt P * (nrm n (seqC x) + 1) / 2 ^ 40 →
      nrm P Y ≤ Real.sqrt P * ((1 + 1 / 2 ^ 40) * (nrm n (seqC x) + 1)) := by
    intro Y x hx h
    have := nrm_forward (N := P) (by omega) (Y := Y) (x := seqC x) (by rw [hpad x hx]; exact h)
    rwa [hpad x hx] at this
  have hY1n := hYn Y1 x1 (by omega) hE1
  have hY2n := hYn Y2 x2 (by omega) hE2
  have hD1 := hDn x1 (by omega)
  have hD2 := hDn x2 (by omega)
  have hA10 := nrm_nonneg n (seqC x1)
  have hA20 := nrm_nonneg n (seqC x2)
  have hYb : ∀ (Y : ℕ → ℂ) (A : ℝ), 0 ≤ A → A ≤ 2 ^ 40 → nrm P Y ≤ Real.sqrt P * ((1 + 1 / 2 ^ 40) * (A + 1)) → ∀ k < P, ‖Y k‖ ≤ 2 ^ 80 := by
    intro Y A h0 hA h k hk
    refine (le_nrm Y hk).trans (h.trans ?_)
    calc Real.sqrt P * ((1 + 1 / 2 ^ 40) * (A + 1)) ≤ 2 ^ 13 * (2 * (2 * 2 ^ 40)) := by
          have : (1 : ℝ) ≤ 2 ^ 40 := one_le_pow₀ (by norm_num)
          refine mul_le_mul hrb (mul_le_mul (by norm_num) (by linarith) (by linarith) (by norm_num)) (by positivity) (by positivity)
      _ ≤ 2 ^ 80 := by norm_num
  have hcell : ∀ k, ∃ c : ℂ, ∀ (h1 : k < f1.length) (h2 : k < f2.length), Is (f1[k].mul f2[k].conj).re c.re ∧ Is (f1[k].mul f2[k].conj).im c.im ∧
      ‖c - Y1 k * (starRingEnd ℂ) (Y2 k)‖ ≤ 1 / 2 ^ 48 * (‖Y1 k‖ * ‖Y2 k‖) + 1 / 2 ^ 150 := by
    intro k
    by_cases hk : k < P
    · have c1 := hY1 k (by omega)
      have c2 := hY2 k (by omega)
      have hcj : Is (f2[k]).conj.im ((starRingEnd ℂ) (Y2 k)).im := by
        rw [Complex.conj_im]
        exact Is.neg (show Is _ _ from c2.2)
      have hcr : Is (f2[k]).conj.re ((starRingEnd ℂ) (Y2 k)).re := by
        rw [Complex.conj_re]
        exact c2.1
      obtain ⟨c, h3, h4, h5⟩ := cmul_acc (a := f1[k]) (b := (f2[k]).conj) c1.1 c1.2 hcr hcj (hYb Y1 _ hA10 hA1 hY1n k hk)
        (by rw [RCLike.norm_conj]; exact hYb Y2 _ hA20 hA2 hY2n k hk)
      rw [RCLike.norm_conj] at h5
      exact ⟨c, fun _ _ => ⟨h3, h4, h5⟩⟩
    · exact ⟨0, fun h _ => absurd h (by omega)⟩
  choose Z hZ using hcell
  have hZv : CVals (List.zipWith Cpx.mul f1 (f2.map Cpx.conj)) Z := by
    intro k hk
    have hk' : k < P := by simpa [hlen1, hlen2] using hk
    rw [List.getElem_zipWith, List.getElem_map]
    have := hZ k (by omega) (by omega)
    exact ⟨this.1, this.2.1⟩
  have hzl : (List.zipWith Cpx.mul f1 (f2.map Cpx.conj)).length = P := by simp [hlen1, hlen2]
  -- sums of absolute errors
  have ha1 : 1 ≤ nrm n (seqC x1) + 1 := by linarith
  have ha2 : 1 ≤ nrm n (seqC x2) + 1 := by linarith
  generalize hA1e : nrm n (seqC x1) = A1 at *
  generalize hA2e : nrm n (seqC x2) = A2 at *
  have hQ1 : 1 ≤ (A1 + 1) * (A2 + 1) := by nlinarith
  have hsumE : ∑ k ∈ range P, ‖Z k - dft P (-1) (seqC x1) k * (starRingEnd ℂ) (dft P (-1) (seqC x2) k)‖ ≤ 3 * (P * ((A1 + 1) * (A2 + 1))) / 2 ^ 40 := by
    have t1 : ∀ k ∈ range P, ‖Z k - dft P (-1) (seqC x1) k * (starRingEnd ℂ) (dft P (-1) (seqC x2) k)‖ ≤
        (1 / 2 ^ 48 * (‖Y1 k‖ * ‖Y2 k‖) + 1 / 2 ^ 150) + (‖Y1 k - dft P (-1) (seqC x1) k‖ * ‖Y2 k‖ +
          ‖dft P (-1) (seqC x1) k‖ * ‖Y2 k - dft P (-1) (seqC x2) k‖) := by
      intro k hk
      have hk := Finset.mem_range.mp hk
      have g0 := (hZ k (by omega) (by omega)).2.2
      generalize dft P (-1) (seqC x1) k = D1
      generalize dft P (-1) (seqC x2) k = D2
      have e : Z k - D1 * (starRingEnd ℂ) D2 = (Z k - Y1 k * (starRingEnd ℂ) (Y2 k)) +
          ((Y1 k - D1) * (starRingEnd ℂ) (Y2 k) + D1 * (starRingEnd ℂ) (Y2 k - D2)) := by
        rw [map_sub]; ring
      rw [e]
      refine (norm_add_le _ _).trans (add_le_add g0 ((norm_add_le _ _).trans (le_of_eq ?_)))
      rw [norm_mul, norm_mul, RCLike.norm_conj, RCLike.norm_conj]
    refine (Finset.sum_le_sum t1).trans ?_
    rw [Finset.sum_add_distrib, Finset.sum_add_distrib, Finset.sum_add_distrib, ← Finset.mul_sum, Finset.sum_const, Finset.card_range, nsmul_eq_mul]
    have c1 : ∑ k ∈ range P, ‖Y1 k‖ * ‖Y2 k‖ ≤ 2 * (P * ((A1 + 1) * (A2 + 1))) := by
      refine (cauchy P Y1 Y2).trans ?_
      calc nrm P Y1 * nrm P Y2 ≤ (Real.sqrt P * ((1 + 1 / 2 ^ 40) * (A1 + 1))) * (Real.sqrt P * ((1 + 1 / 2 ^ 40) * (A2 + 1))) :=
            mul_le_mul hY1n hY2n (nrm_nonneg _ _) (by positivity)
        _ = (1 + 1 / 2 ^ 40) * (1 + 1 / 2 ^ 40) * ((Real.sqrt P * Real.sqrt P) * ((A1 + 1) * (A2 + 1))) := by ring
        _ ≤ 2 * (P * ((A1 + 1) * (A2 + 1))) := by
            rw [hsq]
            exact mul_le_mul_of_nonneg_right (by norm_num) (by positivity)
    have c2 : ∑ k ∈ range P, ‖Y1 k - dft P (-1) (seqC x1) k‖ * ‖Y2 k‖ ≤ (1 + 1 / 2 ^ 40) / 2 ^ 40 * (P * ((A1 + 1) * (A2 + 1))) := by
      refine (cauchy P (fun k => Y1 k - dft P (-1) (seqC x1) k) Y2).trans ?_
      calc nrm P (fun k => Y1 k - dft P (-1) (seqC x1) k) * nrm P Y2
          ≤ (Real.sqrt P * (A1 + 1) / 2 ^ 40) * (Real.sqrt P * ((1 + 1 / 2 ^ 40) * (A2 + 1))) := mul_le_mul hE1 hY2n (nrm_nonneg _ _) (by positivity)
        _ = (1 + 1 / 2 ^ 40) / 2 ^ 40 * ((Real.sqrt P * Real.sqrt P) * ((A1 + 1) * (A2 + 1))) := by ring
        _ = (1 + 1 / 2 ^ 40) / 2 ^ 40 * (P * ((A1 + 1) * (A2 + 1))) := by rw [hsq]
    have c3 : ∑ k ∈ range P, ‖dft P (-1) (seqC x1) k‖ * ‖Y2 k - dft P (-1) (seqC x2) k‖ ≤ 1 / 2 ^ 40 * (P * ((A1 + 1) * (A2 + 1))) := by
      refine (cauchy P (dft P (-1) (seqC x1)) (fun k => Y2 k - dft P (-1) (seqC x2) k)).trans ?_
      rw [hD1]
      calc Real.sqrt P * A1 * nrm P (fun k => Y2 k - dft P (-1) (seqC x2) k)
          ≤ (Real.sqrt P * (A1 + 1)) * (Real.sqrt P * (A2 + 1) / 2 ^ 40) :=
            mul_le_mul (mul_le_mul_of_nonneg_left (by linarith) (by linarith)) hE2 (nrm_nonneg _ _) (by positivity)
        _ = 1 / 2 ^ 40 * ((Real.sqrt P * Real.sqrt P) * ((A1 + 1) * (A2 + 1))) := by ring
        _ = 1 / 2 ^ 40 * (P * ((A1 + 1) * (A2 + 1))) := by rw [hsq]
    have c4 : (P : ℝ) * (1 / 2 ^ 150) ≤ 1 / 2 ^ 150 * (P * ((A1 + 1) * (A2 + 1))) := by
      rw [mul_comm]
      refine mul_le_mul_of_nonneg_left ?_ (by positivity)
      nlinarith
    have hT : 0 ≤ P * ((A1 + 1) * (A2 + 1)) := by positivity
    generalize P * ((A1 + 1) * (A2 + 1)) = T at *
    generalize ∑ k ∈ range P, ‖Y1 k‖ * ‖Y2 k‖ = S1 at *
    have c5 : 1 / 2 ^ 48 * S1 ≤ 1 / 2 ^ 48 * (2 * T) := mul_le_mul_of_nonneg_left c1 (by positivity)
    have c6 : 1 / 2 ^ 48 * (2 * T) + 1 / 2 ^ 150 * T + ((1 + 1 / 2 ^ 40) / 2 ^ 40 * T + 1 / 2 ^ 40 * T) ≤ 3 * T / 2 ^ 40 := by
      have : (1 / 2 ^ 48 * 2 + 1 / 2 ^ 150 + ((1 + 1 / 2 ^ 40) / 2 ^ 40 + 1 / 2 ^ 40)) ≤ (3 : ℝ) / 2 ^ 40 := by norm_num
      have := mul_le_mul_of_nonneg_right this hT
      linarith
    linarith
  have hZn : nrm P Z + 1 ≤ 9 / 8 * (P * ((A1 + 1) * (A2 + 1))) := by
    have g1 := nrm_le_sum P Z
    have g2 : ∑ k ∈ range P, ‖Z k‖ ≤ 3 * (P * ((A1 + 1) * (A2 + 1))) / 2 ^ 40 + P * ((A1 + 1) * (A2 + 1)) := by
      have t2 : ∑ k ∈ range P, ‖Z k‖ ≤ ∑ k ∈ range P, (‖Z k - dft P (-1) (seqC x1) k * (starRingEnd ℂ) (dft P (-1) (seqC x2) k)‖ +
          ‖dft P (-1) (seqC x1) k‖ * ‖dft P (-1) (seqC x2) k‖) := by
        refine Finset.sum_le_sum fun k _ => ?_
        have := norm_add_le (Z k - dft P (-1) (seqC x1) k * (starRingEnd ℂ) (dft P (-1) (seqC x2) k))
          (dft P (-1) (seqC x1) k * (starRingEnd ℂ) (dft P (-1) (seqC x2) k))
        rw [sub_add_cancel, norm_mul, RCLike.norm_conj] at this
        exact this
      rw [Finset.sum_add_distrib] at t2
      refine t2.trans (add_le_add hsumE ((cauchy P _ _).trans ?_))
      rw [hD1, hD2]
      calc Real.sqrt P * A1 * (Real.sqrt P * A2) = (Real.sqrt P * Real.sqrt P) * (A1 * A2) := by ring
        _ ≤ P * ((A1 + 1) * (A2 + 1)) := by
            rw [hsq]
            refine mul_le_mul_of_nonneg_left ?_ (by linarith)
            nlinarith
    have g3 : 32 ≤ P * ((A1 + 1) * (A2 + 1)) := by nlinarith
    generalize P * ((A1 + 1) * (A2 + 1)) = T at *
    have g4 : 3 * T / 2 ^ 40 ≤ 1 / 32 * T := by norm_num; linarith
    linarith
  have hPQ : P * ((A1 + 1) * (A2 + 1)) ≤ 2 ^ 120 := by
    calc (P : ℝ) * ((A1 + 1) * (A2 + 1)) ≤ 2 ^ 26 * ((2 * 2 ^ 40) * (2 * 2 ^ 40)) := by
          have : (1 : ℝ) ≤ 2 ^ 40 := one_le_pow₀ (by norm_num)
          have hP : (P : ℝ) ≤ 2 ^ 26 := by exact_mod_cast hP26
          refine mul_le_mul hP (mul_le_mul (by linarith) (by linarith) (by linarith) (by norm_num)) (by positivity) (by positivity)
      _ ≤ 2 ^ 120 := by norm_num
  obtain ⟨v, vs, hv, hvl, hvv, hve⟩ := inverse1d_acc (m := ⟨P, P⟩) hZv hzl (by show 1 ≤ P; omega) (by show P ≤ 2 ^ 40; omega) le_rfl (by
    calc nrm P Z ≤ 9 / 8 * (P * ((A1 + 1) * (A2 + 1))) := by linarith
      _ ≤ 9 / 8 * 2 ^ 120 := by linarith
      _ ≤ 2 ^ 130 := by norm_num)
  simp only at hv hvl hve
  refine ⟨v, vs, hv, hvl, hvv, fun m hm => ?_⟩
  have j1 := (le_nrm _ hm).trans hve
  unfold seqC at j1
  rw [← Complex.ofReal_sub, Complex.norm_real, Real.norm_eq_abs] at j1
  have hP0 : (0 : ℝ) < P := by linarith
  have j2 : |(dft P 1 Z m).re / P - circCorr x1 x2 P m| ≤ 3 * ((A1 + 1) * (A2 + 1)) / 2 ^ 40 := by
    have e1 : (dft P 1 Z m).re / P - circCorr x1 x2 P m =
        (dft P 1 (fun k => Z k - dft P (-1) (seqC x1) k * (starRingEnd ℂ) (dft P (-1) (seqC x2) k)) m).re / P := by
      rw [dft_sub, dft_circCorr (by omega), Complex.sub_re, sub_div]
      congr 1
      rw [show ((P : ℂ) * ((circCorr x1 x2 P m : ℝ) : ℂ)) = (((P : ℝ) * circCorr x1 x2 P m : ℝ) : ℂ) by push_cast; rfl, Complex.ofReal_re]
      field_simp
    rw [e1, abs_div, abs_of_pos hP0, div_le_iff₀ hP0]
    refine (Complex.abs_re_le_norm _).trans ((dft_norm_le _ _ _ _).trans (hsumE.trans (le_of_eq ?_)))
    ring
  have j3 : 9 / 8 * (nrm P Z + 1) / (2 ^ 40 * Real.sqrt P) ≤ 81 / 64 * Real.sqrt P * ((A1 + 1) * (A2 + 1)) / 2 ^ 40 := by
    rw [div_le_div_iff₀ (by positivity) (by positivity)]
    calc 9 / 8 * (nrm P Z + 1) * 2 ^ 40 ≤ 9 / 8 * (9 / 8 * (P * ((A1 + 1) * (A2 + 1)))) * 2 ^ 40 := by
          exact mul_le_mul_of_nonneg_right (mul_le_mul_of_nonneg_left hZn (by norm_num)) (by positivity)
      _ = 81 / 64 * ((A1 + 1) * (A2 + 1)) * 2 ^ 40 * (Real.sqrt P * Real.sqrt P) := by rw [hsq]; ring
      _ = 81 / 64 * Real.sqrt P * ((A1 + 1) * (A2 + 1)) * (2 ^ 40 * Real.sqrt P) := by ring
  have j4 : |vs.getD m 0 - circCorr x1 x2 P m| ≤ |vs.getD m 0 - (dft P 1 Z m).re / P| + |(dft P 1 Z m).re / P - circCorr x1 x2 P m| := by
    have := abs_add_le (vs.getD m 0 - (dft P 1 Z m).re / P) ((dft P 1 Z m).re / P - circCorr x1 x2 P m)
    rwa [sub_add_sub_cancel] at this
  refine j4.trans ((add_le_add (j1.trans j3) j2).trans ?_)
  rw [← add_div]
  refine div_le_div_of_nonneg_right ?_ (by positivity)
  generalize (A1 + 1) * (A2 + 1) = Q at *
  have k1 : Real.sqrt P * Q ≤ 2 * Real.sqrt n * Q := mul_le_mul_of_nonneg_right hr2n (by linarith)
  have k2 : 5 * Q ≤ Real.sqrt P * Q := mul_le_mul_of_nonneg_right hr5 (by linarith)
  have e1 : 81 / 64 * Real.sqrt P * Q = 81 / 64 * (Real.sqrt P * Q) := by ring
  have e2 : 4 * Real.sqrt n * Q = 2 * (2 * Real.sqrt n * Q) := by ring
  rw [e1, e2]
  linarith

end Visqol
