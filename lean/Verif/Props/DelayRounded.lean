import Verif.Lemmas.IeeeDelay
import Verif.Num.Binary64Accurate
import Verif.Props.Delay
import Verif.Spec.Finite

/-! # The envelope, the best lag and the delay in floating point (C56, C40, C70) -/

set_option linter.unusedSectionVars false

namespace Visqol
open Ieee
open Spec (IsNearBestLag IsNearDelay IsDelay IsBestLag ClearPeak accepted shift norm2)

theorem norm2_eq {x : List ℝ} {n : ℕ} (h : x.length ≤ n) : nrm n (seqC x) = norm2 x := by
  rw [nrm_zero_pad h fun k hk => seqC_beyond _ hk, nrm_seqC]
  unfold norm2
  congr 1
  induction x using List.reverseRecOn generalizing n with
  | nil => simp
  | append_singleton l a ih =>
    rw [List.length_append, List.length_singleton, Finset.sum_range_succ, List.map_append, List.sum_append, ← ih le_rfl]
    congr 1
    · refine Finset.sum_congr rfl fun i hi => ?_
      have hi := Finset.mem_range.mp hi
      simp [List.getD, List.getElem?_append_left hi]
    · simp [List.getD]

theorem vals_map_number {F : Type} [Flt F] [Ieee F] {s : AudioSignal F} (h : OrdinarySamples s) :
    Vals s.data (s.data.map number) ∧ ∀ x ∈ s.data.map number, |x| ≤ 2 := by
  refine ⟨vals_number fun a ha => ?_, fun x hx => ?_⟩
  · obtain ⟨x, hx, _⟩ := h a ha
    exact ⟨x, hx⟩
  · obtain ⟨a, ha, rfl⟩ := List.mem_map.mp hx
    obtain ⟨y, hy, hy2⟩ := h a ha
    rw [number_of hy]; exact hy2

/-- A lag which is the best up to `tol` is the best one if that exceeds all others by more than `tol`. -/
theorem nearBest_clear {s t : List ℝ} {tol : ℝ} {a b : ℤ} (ha : IsNearBestLag s t tol a) (hb : ClearPeak s t tol b) : a = b := by
  by_contra hne
  have h1 := hb.2 a ha.inside hne
  have h2 := ha.best b hb.1
  linarith

variable {F : Type} [Flt F] [Ieee F] [Libm F] [RustFft F] [AccurateFft F]

/-- C56, floating point: the computed envelope of an ordinary signal differs from the exact one, in root mean square, by at most
`2^-32 + n / 2^46`. -/
theorem C56_rounded (p : Profile) {s : AudioSignal F} (ho : OrdinarySamples s) (h2 : 2 ≤ s.data.length) (h24 : s.data.length ≤ 2 ^ 24) :
    ∃ r env, nextPowTwo p s.data.length = .ok r ∧ calculateUpperEnv p s.data = .ok (some env) ∧ env.length = s.data.length ∧
      (∀ a ∈ env, ∃ x, val a = .fin x) ∧
      norm2 (List.zipWith (fun a x => number a - x) env (Spec.envelope (s.data.map number) (max r 32))) ≤
        Real.sqrt s.data.length * (1 / 2 ^ 32 + s.data.length / 2 ^ 46) := by
  obtain ⟨hv, hb⟩ := vals_map_number ho
  obtain ⟨r, env, es, h1, h3, h4, h5, h6⟩ := envelope_acc (p := p) hv hb h2 h24
  refine ⟨r, env, h1, h3, h5, fun a ha => ?_, ?_⟩
  · obtain ⟨i, hi, rfl⟩ := List.getElem_of_mem ha
    exact ⟨_, h4.get hi⟩
  · have hel := h4.length
    have hl : (Spec.envelope (s.data.map number) (max r 32)).length = s.data.length := by simp [Spec.envelope]
    rw [← norm2_eq (n := s.data.length) (by simp [hl, h5])]
    refine le_trans (le_of_eq ?_) h6
    refine nrm_congr fun i hi => ?_
    unfold seqC
    rw [← Complex.ofReal_sub]
    congr 1
    have e1 : number env[i] = es.getD i 0 := number_of (h4.get (by omega))
    rw [List.getD_eq_getElem?_getD, List.getElem?_eq_getElem (by simp [hl, h5]; exact hi), Option.getD_some, List.getElem_zipWith, e1]
    congr 1
    simp [List.getD, List.getElem?_eq_getElem (show i < (Spec.envelope (s.data.map number) (max r 32)).length by omega)]

/-- The hypotheses of `C56_rounded`. -/
example : ∃ s : AudioSignal B64, OrdinarySamples s ∧ 2 ≤ s.data.length ∧ s.data.length ≤ 2 ^ 24 := by
  refine ⟨⟨[1.0, 0.0, 1.0], 16000⟩, ?_, by decide, by decide⟩
  intro a ha
  simp only [List.mem_cons, List.not_mem_nil, or_false] at ha
  rcases ha with rfl | rfl | rfl
  · exact ⟨1, val_1, by norm_num⟩
  · exact ⟨0, val_0, by norm_num⟩
  · exact ⟨1, val_1, by norm_num⟩

/-- C40, floating point: the absolute correlation at the lag found is the largest up to `8 √n (‖x‖ + 1) (‖y‖ + 1) / 2^40`. -/
theorem C40_rounded (p : Profile) {s t : List F} (hs : ∀ a ∈ s, ∃ x, val a = .fin x) (ht : ∀ a ∈ t, ∃ x, val a = .fin x)
    (h9 : 9 ≤ max s.length t.length) (h24 : max s.length t.length ≤ 2 ^ 24) (h1 : norm2 (s.map number) ≤ 2 ^ 40)
    (h2 : norm2 (t.map number) ≤ 2 ^ 40) :
    ∃ lag, calculateBestLag p s t = .ok (some lag) ∧ IsNearBestLag (s.map number) (t.map number)
      (8 * Real.sqrt (max s.length t.length : ℕ) * (norm2 (s.map number) + 1) * (norm2 (t.map number) + 1) / 2 ^ 40) lag := by
  have e1 := norm2_eq (x := s.map number) (n := max s.length t.length) (by simp)
  have e2 := norm2_eq (x := t.map number) (n := max s.length t.length) (by simp)
  obtain ⟨lag, g1, g2, g3⟩ := bestLag_near (p := p) (vals_number hs) (vals_number ht) rfl h9 h24 (e1 ▸ h1) (e2 ▸ h2)
  refine ⟨lag, g1, by simpa using g2, fun k hk => (g3 k (by simpa using hk)).trans (le_of_eq ?_)⟩
  rw [e1, e2]
  ring

/-- The hypotheses of `C40_rounded`. -/
example : ∃ s t : List B64, (∀ a ∈ s, ∃ x, val a = .fin x) ∧ (∀ a ∈ t, ∃ x, val a = .fin x) ∧ 9 ≤ max s.length t.length ∧
    max s.length t.length ≤ 2 ^ 24 ∧ norm2 (s.map number) ≤ 2 ^ 40 ∧ norm2 (t.map number) ≤ 2 ^ 40 := by
  have n1 : number (1.0 : B64) = 1 := number_of val_1
  refine ⟨List.replicate 9 1.0, [1.0], ?_, ?_, by decide, by decide, ?_, ?_⟩
  · intro a ha; rw [List.eq_of_mem_replicate ha]; exact ⟨1, val_1⟩
  · intro a ha; rw [List.mem_singleton.mp ha]; exact ⟨1, val_1⟩
  · unfold norm2
    rw [List.map_replicate, n1, List.map_replicate, List.sum_replicate]
    exact Real.sqrt_le_iff.mpr ⟨by positivity, by norm_num⟩
  · unfold norm2
    simp only [List.map_cons, n1]
    exact Real.sqrt_le_iff.mpr ⟨by positivity, by norm_num⟩

/-- C70, floating point: alignment always returns, the degraded signal being shifted by a lag at which the absolute correlation of
the exact envelopes is the largest up to `n √n / 2^26`, unless that is more than half the reference. -/
theorem C70_rounded (p : Profile) {pad : ℕ → ℕ} (hpad : ∀ n, 1 ≤ n → n ≤ 2 ^ 63 → nextPowTwo p n = .ok (pad n))
    {ref deg : AudioSignal F} (hro : OrdinarySamples ref) (hdo : OrdinarySamples deg) (hr : 2 ≤ ref.data.length) (hd : 2 ≤ deg.data.length)
    (h9 : 9 ≤ max ref.data.length deg.data.length) (h24 : max ref.data.length deg.data.length ≤ 2 ^ 24)
    (hlong : ref.data.length / 2 ≤ deg.data.length) (hsr : 1 ≤ deg.sampleRate) (hsr2 : deg.sampleRate ≤ 2 ^ 53) :
    ∃ (z : ℤ) (al : AudioSignal F) (l : F), globallyAlign p ref deg = .ok (some (al, l)) ∧
      IsNearDelay pad (ref.data.map number) (deg.data.map number)
        ((max ref.data.length deg.data.length : ℕ) * Real.sqrt (max ref.data.length deg.data.length : ℕ) / 2 ^ 26) z ∧
      al.sampleRate = deg.sampleRate ∧ al.data.map val = (shift z (deg.data.map number)).map .fin ∧
      val l = rnd F ((z : ℝ) / deg.sampleRate) ∧ (z = 0 → al = deg) := by
  obtain ⟨hv1, hb1⟩ := vals_map_number hro
  obtain ⟨hv2, hb2⟩ := vals_map_number hdo
  obtain ⟨r1, r2, e1, e2, lag, g1, g2, g3, g4, g5, g6, g7⟩ := lag_near (p := p) hv1 hv2 hb1 hb2 hr hd rfl h9 h24
  have p1 : r1 = pad ref.data.length := by rw [hpad _ (by omega) (by omega)] at g1; exact (Except.ok.inj g1).symm
  have p2 : r2 = pad deg.data.length := by rw [hpad _ (by omega) (by omega)] at g2; exact (Except.ok.inj g2).symm
  have lr : (Spec.envelope (ref.data.map number) (max r1 32)).length = ref.data.length := by simp [Spec.envelope]
  have ld : (Spec.envelope (deg.data.map number) (max r2 32)).length = deg.data.length := by simp [Spec.envelope]
  have hnear : IsNearDelay pad (ref.data.map number) (deg.data.map number)
        ((max ref.data.length deg.data.length : ℕ) * Real.sqrt (max ref.data.length deg.data.length : ℕ) / 2 ^ 26)
        (accepted (ref.data.map number) lag) := by
    refine ⟨lag, ?_, rfl⟩
    rw [List.length_map, List.length_map, ← p1, ← p2]
    exact ⟨by rw [lr, ld]; exact g6, by rw [lr, ld]; exact g7⟩
  refine ⟨accepted (ref.data.map number) lag, ?_⟩
  unfold globallyAlign
  rw [g3]
  simp only [ok_bind]
  rw [g4]
  simp only [ok_bind]
  rw [g5]
  simp only [ok_bind]
  by_cases hc : lag = 0 ∨ lag.natAbs > ref.data.length / 2
  · have ha : accepted (ref.data.map number) lag = 0 := by unfold accepted; rw [List.length_map]; split <;> omega
    rw [if_pos hc]
    refine ⟨_, _, rfl, hnear, rfl, ?_, ?_, fun _ => rfl⟩
    · rw [ha]
      simp only [shift, Int.toNat_zero, List.replicate_zero, List.nil_append, neg_zero, List.drop_zero]
      exact hv2
    · rw [ha, Int.cast_zero, zero_div, rnd_zero]
      exact val_0
  · have ha : accepted (ref.data.map number) lag = lag := by unfold accepted; rw [List.length_map, if_neg (by omega)]
    rw [if_neg hc]
    have hquot : val (Flt.ofInt lag / Flt.ofNat deg.sampleRate : F) = rnd F ((lag : ℝ) / deg.sampleRate) := by
      have a1 : Is (Flt.ofInt lag : F) lag := by
        show val _ = _
        rw [Ieee.val_ofInt, rnd_int F (by rw [abs_le]; omega)]
      have a2 : Is (Flt.ofNat deg.sampleRate : F) deg.sampleRate := val_nat hsr2
      exact a1.div a2 (by exact_mod_cast (by omega : deg.sampleRate ≠ 0))
    have hz : accepted (ref.data.map number) lag ≠ 0 := by rw [ha]; omega
    by_cases hneg : lag < 0
    · rw [if_pos hneg, sliceM_of_le (by omega) le_rfl]
      simp only [ok_bind]
      refine ⟨_, _, rfl, hnear, rfl, ?_, by rw [ha]; exact hquot, fun h => absurd h hz⟩
      rw [ha]
      unfold shift
      rw [List.take_of_length_le (by simp), show lag.toNat = 0 by omega, show (-lag).toNat = lag.natAbs by omega]
      simp only [List.replicate_zero, List.nil_append]
      rw [List.map_drop, hv2, List.map_drop]
    · rw [if_neg hneg]
      refine ⟨_, _, rfl, hnear, rfl, ?_, by rw [ha]; exact hquot, fun h => absurd h hz⟩
      rw [ha]
      unfold shift
      rw [show (-lag).toNat = 0 by omega]
      simp only [List.drop_zero, List.map_append, List.map_replicate]
      rw [hv2, val_0]

/-- C70, floating point: if one lag stands out, the delay is the same as in exact arithmetic. -/
theorem C70_clear {pad : ℕ → ℕ} {x y : List ℝ} {tol : ℝ} (h0 : 0 ≤ tol) {a b lag : ℤ} (ha : IsNearDelay pad x y tol a) (hb : IsDelay pad x y b)
    (hc : ClearPeak (Spec.envelope x (max (pad x.length) 32)) (Spec.envelope y (max (pad y.length) 32)) tol lag) : a = b := by
  obtain ⟨la, a1, rfl⟩ := ha
  obtain ⟨lb, b1, rfl⟩ := hb
  have b2 : IsNearBestLag (Spec.envelope x (max (pad x.length) 32)) (Spec.envelope y (max (pad y.length) 32)) tol lb :=
    ⟨b1.inside, fun k hk => (b1.best k hk).trans (by linarith)⟩
  rw [nearBest_clear a1 hc, nearBest_clear b2 hc]

/-- A signal correlates less with a shifted copy than with itself. -/
theorem self_corr_le (e : List ℝ) {k : ℤ} (hk : k ≠ 0) (hne : e ≠ []) :
    |xcorr e e k| ≤ xcorr e e 0 - (e.getD 0 0 ^ 2 + e.getD (e.length - 1) 0 ^ 2) / 2 := by
  have hpos : 0 < e.length := List.length_pos_iff.mpr hne
  set n := e.length with hn
  set R := ∑ i ∈ Finset.range n, e.getD i 0 ^ 2 with hR
  have h0 : xcorr e e 0 = R := by
    unfold xcorr
    refine Finset.sum_congr rfl fun j _ => ?_
    rw [add_zero, sampleAt_nat]; ring
  have hdrop : ∀ i0 < n, ∑ i ∈ Finset.range n, (fun i : ℤ => if i = i0 then 0 else sampleAt e i) i ^ 2 = R - e.getD i0 0 ^ 2 := by
    intro i0 hi0
    rw [hR, ← Finset.add_sum_erase (Finset.range n) (fun i => e.getD i 0 ^ 2) (Finset.mem_range.mpr hi0), add_sub_cancel_left,
      ← Finset.add_sum_erase _ _ (Finset.mem_range.mpr hi0)]
    simp only [if_true]
    rw [zero_pow (by norm_num), zero_add]
    refine Finset.sum_congr rfl fun i hi => ?_
    have : (i : ℤ) ≠ i0 := by exact_mod_cast (Finset.mem_erase.mp hi).1
    rw [if_neg this, sampleAt_nat]
  have zero : ∀ (i0 : ℕ) (k : ℤ), k < 0 ∨ (n : ℤ) ≤ k → (fun i : ℤ => if i = i0 then 0 else sampleAt e i) k = 0 := by
    intro i0 k hk
    simp only
    split
    · rfl
    · exact sampleAt_outside le_rfl hk
  have amgm : ∀ u v : ℝ, 0 ≤ u → 0 ≤ v → Real.sqrt u * Real.sqrt v ≤ (u + v) / 2 := by
    intro u v hu hv
    have h1 := Real.mul_self_sqrt hu
    have h2 := Real.mul_self_sqrt hv
    nlinarith [sq_nonneg (Real.sqrt u - Real.sqrt v)]
  have nonneg : ∀ i0 < n, 0 ≤ R - e.getD i0 0 ^ 2 := fun i0 hi0 => by
    rw [← hdrop i0 hi0]; exact Finset.sum_nonneg fun _ _ => sq_nonneg _
  have main : ∀ i0 < n, ∀ i1 < n, (∀ j : ℕ, j < n → (j : ℤ) + k = i0 → False) → (∀ j : ℕ, j < n → j = i1 → sampleAt e (j + k) = 0) →
      |xcorr e e k| ≤ R - (e.getD i0 0 ^ 2 + e.getD i1 0 ^ 2) / 2 := by
    intro i0 hi0 i1 hi1 c0 c1
    have e1 : xcorr e e k = ∑ j ∈ Finset.range n, (fun i : ℤ => if i = i0 then 0 else sampleAt e i) (j + k) *
        (fun i : ℤ => if i = i1 then 0 else sampleAt e i) j := by
      unfold xcorr
      refine Finset.sum_congr rfl fun j hj => ?_
      have hj := Finset.mem_range.mp hj
      simp only
      rw [if_neg (fun h => c0 j hj h)]
      split
      · rename_i h
        rw [c1 j hj (by exact_mod_cast h)]; simp
      · rfl
    rw [e1]
    refine (corr_cauchy (b := fun i : ℤ => if i = i1 then 0 else sampleAt e i) (zero i0) n k).trans ?_
    rw [hdrop i0 hi0, hdrop i1 hi1]
    refine (amgm _ _ (nonneg i0 hi0) (nonneg i1 hi1)).trans (le_of_eq ?_)
    ring
  rw [h0]
  rcases lt_or_gt_of_ne hk with hneg | hpos'
  · have := main (n - 1) (by omega) 0 hpos (fun j hj h => by omega) (fun j hj h => sampleAt_outside le_rfl (by omega))
    linarith
  · exact main 0 hpos (n - 1) (by omega) (fun j hj h => by omega) (fun j hj h => sampleAt_outside (n := n) le_rfl (by omega))

/-- The correlation of a signal with itself has a clear peak if its ends are loud enough. -/
theorem self_clear {e : List ℝ} {tol : ℝ} (hne : e ≠ []) (h : tol < (e.getD 0 0 ^ 2 + e.getD (e.length - 1) 0 ^ 2) / 2) : ClearPeak e e tol 0 := by
  have hpos : 0 < e.length := List.length_pos_iff.mpr hne
  refine ⟨by simpa using hpos, fun k _ hk => ?_⟩
  have := self_corr_le e hk hne
  have := le_abs_self (xcorr e e 0)
  linarith

/-- The envelope of a constant signal. -/
theorem envelope_const {n N : ℕ} {c : ℝ} (hn : 0 < n) : Spec.envelope (List.replicate n c) N = List.replicate n (1 / 1000000 + c) := by
  have hnr : (n : ℝ) ≠ 0 := by exact_mod_cast hn.ne'
  have hm : mean (List.replicate n c) = c := by
    unfold mean
    rw [List.sum_replicate, List.length_replicate, nsmul_eq_mul]
    field_simp
  have hh : ∀ t, Spec.highest ((List.replicate n c).map (· - mean (List.replicate n c))) N t = 0 := by
    intro t
    unfold Spec.highest
    rw [Finset.sum_eq_zero, zero_div]
    intro a _
    have : ((List.replicate n c).map (· - mean (List.replicate n c))).getD a 0 = 0 := by
      rw [hm, List.map_replicate, sub_self, List.getD_eq_getElem?_getD, List.getElem?_replicate]
      split <;> rfl
    rw [this, zero_mul]
  unfold Spec.envelope
  rw [List.eq_replicate_iff]
  refine ⟨by simp, fun b hb => ?_⟩
  obtain ⟨t, ht, rfl⟩ := List.mem_map.mp hb
  have ht : t < n := by simpa using ht
  rw [hh, hm, List.getD_eq_getElem?_getD, List.getElem?_replicate, if_pos ht, Option.getD_some, mul_zero, sub_zero, sub_self, mul_zero, zero_sub,
    abs_neg, abs_of_pos (by norm_num)]

/-- The hypotheses of `C70_rounded` and `C70_clear`: a constant signal and itself. -/
example : ∃ ref deg : AudioSignal B64, OrdinarySamples ref ∧ OrdinarySamples deg ∧ 2 ≤ ref.data.length ∧ 2 ≤ deg.data.length ∧
    9 ≤ max ref.data.length deg.data.length ∧ max ref.data.length deg.data.length ≤ 2 ^ 24 ∧ ref.data.length / 2 ≤ deg.data.length ∧
    1 ≤ deg.sampleRate ∧ deg.sampleRate ≤ 2 ^ 53 ∧ ∀ N, ClearPeak (Spec.envelope (ref.data.map number) N) (Spec.envelope (deg.data.map number) N)
      ((max ref.data.length deg.data.length : ℕ) * Real.sqrt (max ref.data.length deg.data.length : ℕ) / 2 ^ 26) 0 := by
  have ho : OrdinarySamples (⟨List.replicate 16 1.0, 16000⟩ : AudioSignal B64) := by
    intro a ha
    rw [List.eq_of_mem_replicate ha]
    exact ⟨1, val_1, by norm_num⟩
  refine ⟨⟨List.replicate 16 1.0, 16000⟩, ⟨List.replicate 16 1.0, 16000⟩, ho, ho, by decide, by decide, by decide, by decide, by decide, by decide,
    by decide, fun N => ?_⟩
  simp only [List.map_replicate, List.length_replicate, max_self, number_of (val_1 (F := B64))]
  rw [envelope_const (by norm_num)]
  refine self_clear (by simp) ?_
  have h4 : Real.sqrt ((16 : ℕ) : ℝ) = 4 := by
    rw [show ((16 : ℕ) : ℝ) = 4 ^ 2 by norm_num]; exact Real.sqrt_sq (by norm_num)
  rw [h4]
  simp only [List.length_replicate, List.getD_eq_getElem?_getD, List.getElem?_replicate]
  norm_num

end Visqol
