import Verif.Num.Dft
import Verif.Spec.Signal
import Verif.Props.Sizes
import Mathlib.Tactic.Ring
import Mathlib.Tactic.Linarith

/-! # Cross-correlation via the FFT -/

namespace Visqol
open Finset

theorem realTrunc_natCast (n : ℕ) : realTrunc (n : ℝ) = n := by
  simp [realTrunc]

theorem realTrunc_intCast (n : ℤ) : realTrunc (n : ℝ) = n := by
  simp [realTrunc]

theorem realToInt_intCast {lo hi n : ℤ} (h1 : lo ≤ n) (h2 : n ≤ hi) : realToInt lo hi (n : ℝ) = n := by
  unfold realToInt; rw [realTrunc_intCast]; omega

theorem frexpExp_real {L : ℕ} (h1 : 1 ≤ L) (h2 : L < 2 ^ 63) : frexpExp ((L : ℕ) : ℝ) = (Nat.log 2 L : ℤ) + 1 := by
  unfold frexpExp
  have hpos : (0 : ℝ) < L := by exact_mod_cast h1
  have hne : Flt.eq ((0.0 : ℝ)) (L : ℝ) = false := by
    simp only [real_eq, decide_eq_false_iff_not]
    intro h
    have : (0.0 : ℝ) = 0 := by norm_num
    rw [this] at h; linarith
  have hne' : Flt.eq (@OfScientific.ofScientific ℝ Flt.toOfScientific 0 true 1) (L : ℝ) = false := hne
  rw [hne']
  simp only [Bool.false_eq_true, if_false, real_abs, real_log2, real_floor, real_lit1]
  rw [abs_of_pos hpos]
  have hf : ⌊Real.logb 2 (L : ℝ)⌋ = (Nat.log 2 L : ℤ) := by
    have := Real.floor_logb_natCast (b := 2) (r := (L : ℝ)) hpos.le
    rw [Int.log_natCast] at this
    exact_mod_cast this
  rw [hf]
  have : (((Nat.log 2 L : ℤ) : ℝ) + 1) = (((Nat.log 2 L : ℤ) + 1 : ℤ) : ℝ) := by push_cast; ring
  rw [this]
  apply realToInt_intCast
  · have : (0 : ℤ) ≤ (Nat.log 2 L : ℤ) := by positivity
    omega
  · have : Nat.log 2 L < 63 := Nat.log_lt_of_lt_pow (by omega) h2
    omega

/-- The FFT length used for signals of length `n`. -/
def xcorrPoints (n : ℕ) : ℕ := 2 ^ (Nat.log 2 (2 * n - 1) + 1)

theorem xcorrPoints_ge {n : ℕ} (h : 1 ≤ n) : 2 * n ≤ xcorrPoints n := by
  have := Nat.lt_pow_succ_log_self (b := 2) (by decide) (2 * n - 1)
  unfold xcorrPoints; simp only [Nat.succ_eq_add_one] at this; omega

theorem xcorrPoints_ge32 {n : ℕ} (h : 9 ≤ n) : 32 ≤ xcorrPoints n := by
  unfold xcorrPoints
  have : 4 ≤ Nat.log 2 (2 * n - 1) := Nat.le_log_of_pow_le (by decide) (by omega)
  calc 32 = 2 ^ (4 + 1) := by norm_num
    _ ≤ _ := Nat.pow_le_pow_right (by decide) (by omega)

/-- A signal zero-padded to `N` samples, as complex entries. -/
theorem entryC_pad (s : List ℝ) (N k : ℕ) (hk : k < N) :
    entryC ((resize s N 0).map Cpx.ofRe) k = ((s.getD k 0 : ℝ) : ℂ) := by
  unfold entryC resize
  rw [List.getElem?_map]
  by_cases h : k < s.length
  · rw [List.getElem?_append_left (by simp; omega), List.getElem?_take_of_lt hk, List.getElem?_eq_getElem h]
    simp only [Option.map_some, Option.getD_some, List.getD, List.getElem?_eq_getElem h]
    apply Complex.ext
    · rfl
    · show (@OfScientific.ofScientific ℝ Flt.toOfScientific 0 true 1) = 0
      simp
  · rw [List.getElem?_append_right (by simp; omega), List.getElem?_replicate_of_lt (by simp; omega)]
    simp only [Option.map_some, Option.getD_some, List.getD, List.getElem?_eq_none (Nat.not_lt.mp h), Option.getD_none]
    apply Complex.ext
    · rfl
    · show (@OfScientific.ofScientific ℝ Flt.toOfScientific 0 true 1) = 0
      simp

theorem entryC_getElem {l : List (Cpx ℝ)} {k : ℕ} {z : Cpx ℝ} (h : l[k]? = some z) : entryC l k = z.toC := by
  simp [entryC, h]

theorem toC_mul (a b : Cpx ℝ) : (Cpx.mul a b).toC = a.toC * b.toC := by
  apply Complex.ext <;> simp [Cpx.mul, Cpx.toC, Complex.mul_re, Complex.mul_im]

theorem toC_conj (a : Cpx ℝ) : (Cpx.conj a).toC = (starRingEnd ℂ) a.toC := by
  apply Complex.ext <;> simp [Cpx.conj, Cpx.toC]

/-- Entries of the pointwise product. -/
theorem entryC_prod {f1 f2 : List (Cpx ℝ)} {N k : ℕ} (h1 : f1.length = N) (h2 : f2.length = N) (hk : k < N) :
    entryC (List.zipWith Cpx.mul f1 (f2.map Cpx.conj)) k = entryC f1 k * (starRingEnd ℂ) (entryC f2 k) := by
  have e1 : f1[k]? = some f1[k] := List.getElem?_eq_getElem (by omega)
  have e2 : f2[k]? = some f2[k] := List.getElem?_eq_getElem (by omega)
  have e3 : (List.zipWith Cpx.mul f1 (f2.map Cpx.conj))[k]? = some (Cpx.mul f1[k] (Cpx.conj f2[k])) := by
    rw [List.getElem?_zipWith, e1, List.getElem?_map, e2]; rfl
  rw [entryC_getElem e1, entryC_getElem e2, entryC_getElem e3, toC_mul, toC_conj]

/-- What the pipeline of transforms computes, as a list of `N` real numbers. -/
noncomputable def circCorr (s1 s2 : List ℝ) (N m : ℕ) : ℝ :=
  ∑ a ∈ range N, ∑ b ∈ range N, if (N : ℤ) ∣ ((m : ℤ) - a + b) then s1.getD a 0 * s2.getD b 0 else 0

theorem forward1dFromPoints_real {p : Profile} {N : ℕ} {s : List ℝ} (h : s.length ≤ N) :
    forward1dFromPoints p ⟨N, N⟩ s N = .ok (dftList (-1) ((resize s N 0).map Cpx.ofRe)) := by
  unfold forward1dFromPoints
  rw [usub_of_le h]
  simp only [ok_bind, forward1d, rustFft_forward, real_lit0]
  congr 3
  rw [resize_of_le h]
  have : (s ++ List.replicate (N - s.length) (0 : ℝ)).length = N := by simp; omega
  have e := resize_self (s ++ List.replicate (N - s.length) (0 : ℝ)) 0
  rwa [this] at e

theorem inverse_prod_real {p : Profile} {N : ℕ} (hN : 0 < N) {s1 s2 : List ℝ} (h1 : s1.length ≤ N) (h2 : s2.length ≤ N) :
    (fftPointwiseProduct p ⟨N, N⟩ s1 s2 N >>= fun prod => inverse1d ⟨N, N⟩ prod) =
      .ok ((List.range N).map (circCorr s1 s2 N)) := by
  unfold fftPointwiseProduct
  rw [forward1dFromPoints_real h1, forward1dFromPoints_real h2]
  simp only [ok_bind]
  have hN' : (N : ℂ) ≠ 0 := by exact_mod_cast hN.ne'
  set f1 := dftList (-1) ((resize s1 N 0).map Cpx.ofRe) with hf1
  set f2 := dftList (-1) ((resize s2 N 0).map Cpx.ofRe) with hf2
  have l1 : f1.length = N := by rw [hf1, dftList_length]; simp [resize_length]
  have l2 : f2.length = N := by rw [hf2, dftList_length]; simp [resize_length]
  set pr := List.zipWith Cpx.mul f1 (f2.map Cpx.conj) with hpr
  have lp : pr.length = N := by rw [hpr]; simp [l1, l2]
  unfold inverse1d
  rw [if_neg (by simp [lp])]
  simp only
  have lt : ((RustFft.inverse pr).map fun c => c.re * ((1.0 : ℝ) / (Flt.ofNat N : ℝ))).length = N := by
    rw [List.length_map, rustFft_inverse, dftList_length, lp]
  rw [if_pos (by
    show N ≤ ((RustFft.inverse pr).map _).length
    rw [List.length_map, rustFft_inverse, dftList_length, lp])]
  congr 1
  rw [List.take_of_length_le (by rw [List.length_map, rustFft_inverse, dftList_length, lp])]
  rw [rustFft_inverse, dftList, List.map_map, lp]
  apply List.map_congr_left
  intro m hm
  have hm := List.mem_range.mp hm
  simp only [Function.comp, real_ofNat, real_lit1]
  have key : dftSum 1 pr m = N * ((circCorr s1 s2 N m : ℝ) : ℂ) := by
    unfold dftSum
    rw [lp]
    have e : ∀ k ∈ range N, entryC pr k * rootE N (1 * ((m : ℤ) * k)) =
      ((∑ a ∈ range N, ((s1.getD a 0 : ℝ) : ℂ) * rootE N (-1 * (k * a))) *
        (starRingEnd ℂ) (∑ b ∈ range N, ((s2.getD b 0 : ℝ) : ℂ) * rootE N (-1 * (k * b)))) * rootE N (k * (m : ℤ)) := by
      intro k hk
      have hk := Finset.mem_range.mp hk
      rw [hpr, entryC_prod l1 l2 hk]
      have d : ∀ s : List ℝ, entryC (dftList (-1) ((resize s N 0).map Cpx.ofRe)) k =
          ∑ a ∈ range N, ((s.getD a 0 : ℝ) : ℂ) * rootE N (-1 * (k * a)) := by
        intro s
        have hl : ((resize s N 0).map Cpx.ofRe).length = N := by simp [resize_length]
        rw [entryC_dftList (by rw [hl]; exact hk)]
        unfold dftSum
        rw [hl]
        apply Finset.sum_congr rfl
        intro a ha
        rw [entryC_pad s N a (Finset.mem_range.mp ha)]
      rw [hf1, hf2, d s1, d s2]
      congr 2; ring
    rw [Finset.sum_congr rfl e, dft_correlation hN]
    congr 1
    unfold circCorr
    push_cast
    apply Finset.sum_congr rfl; intro a _
    apply Finset.sum_congr rfl; intro b _
    split <;> simp
  rw [key]
  have : (Cpx.ofC ((N : ℂ) * ((circCorr s1 s2 N m : ℝ) : ℂ))).re = N * circCorr s1 s2 N m := by
    simp [Cpx.ofC]
  rw [this]
  have hNr : (N : ℝ) ≠ 0 := by exact_mod_cast hN.ne'
  field_simp

/-- Without wrap-around the circular correlation is the linear one. -/
theorem circCorr_eq_xcorr {s1 s2 : List ℝ} {n N m : ℕ} (h1 : s1.length = n) (h2 : s2.length = n) (hN : 2 * n ≤ N)
    (lag : ℤ) (hl : |lag| < n) (hm : (N : ℤ) ∣ (m : ℤ) - lag) : circCorr s1 s2 N m = xcorr s1 s2 lag := by
  obtain ⟨hl1, hl2⟩ := abs_lt.mp hl
  unfold circCorr xcorr
  rw [Finset.sum_comm, h2]
  have big : ∀ b ∈ range N, b ∉ range n →
      (∑ a ∈ range N, if (N : ℤ) ∣ ((m : ℤ) - a + b) then s1.getD a 0 * s2.getD b 0 else 0) = 0 := by
    intro b _ hb
    apply Finset.sum_eq_zero
    intro a _
    have : s2.getD b 0 = 0 := by
      rw [List.getD, List.getElem?_eq_none (by rw [h2]; simpa using hb)]; rfl
    rw [this]; simp
  rw [← Finset.sum_subset (Finset.range_subset_range.mpr (by omega : n ≤ N)) big]
  apply Finset.sum_congr rfl
  intro b hb
  have hb := Finset.mem_range.mp hb
  have hbs : sampleAt s2 (b : ℤ) = s2.getD b 0 := by
    unfold sampleAt; rw [if_pos (by positivity)]; simp
  rw [hbs]
  have dv : ∀ a < n, ((N : ℤ) ∣ ((m : ℤ) - a + b) ↔ (a : ℤ) = b + lag) := by
    intro a ha
    constructor
    · intro h
      have h3 : (N : ℤ) ∣ (lag - a + b) := by
        have := Int.dvd_sub h hm
        have e : (m : ℤ) - a + b - (m - lag) = lag - a + b := by ring
        rwa [e] at this
      have h4 : |lag - a + b| < N := by rw [abs_lt]; constructor <;> omega
      have := Int.eq_zero_of_abs_lt_dvd h3 h4
      omega
    · intro h
      have e : (m : ℤ) - a + b = m - lag := by omega
      rw [e]; exact hm
  by_cases hpos : 0 ≤ (b : ℤ) + lag ∧ (b : ℤ) + lag < n
  · have ha : ((b : ℤ) + lag).toNat < n := by omega
    rw [Finset.sum_eq_single ((b : ℤ) + lag).toNat]
    · rw [if_pos ((dv _ ha).mpr (by omega))]
      unfold sampleAt
      rw [if_pos hpos.1]
    · intro a haN hne
      by_cases han : a < n
      · rw [if_neg]
        intro h
        have := (dv a han).mp h
        omega
      · have : s1.getD a 0 = 0 := by rw [List.getD, List.getElem?_eq_none (by omega)]; rfl
        rw [this]; simp
    · intro h
      exact absurd (Finset.mem_range.mpr (by omega)) h
  · have hz : sampleAt s1 ((b : ℤ) + lag) = 0 := by
      unfold sampleAt
      split
      · rw [List.getD, List.getElem?_eq_none (by omega)]; rfl
      · rfl
    rw [hz, zero_mul]
    apply Finset.sum_eq_zero
    intro a _
    by_cases han : a < n
    · rw [if_neg]
      intro h
      have := (dv a han).mp h
      omega
    · have : s1.getD a 0 = 0 := by rw [List.getD, List.getElem?_eq_none (by omega)]; rfl
      rw [this]; simp

theorem getD_resize (s : List ℝ) (n k : ℕ) (h : s.length ≤ n) : (resize s n 0).getD k 0 = s.getD k 0 := by
  rw [resize_of_le h]
  simp only [List.getD]
  by_cases hk : k < s.length
  · rw [List.getElem?_append_left hk]
  · rw [List.getElem?_append_right (by omega), List.getElem?_eq_none (by omega : s.length ≤ k), List.getElem?_replicate]
    split <;> rfl

theorem sampleAt_resize (s : List ℝ) (n : ℕ) (k : ℤ) (h : s.length ≤ n) : sampleAt (resize s n 0) k = sampleAt s k := by
  unfold sampleAt; rw [getD_resize s n _ h]

theorem xcorr_resize (s t : List ℝ) (n : ℕ) (h1 : s.length ≤ n) (h2 : t.length ≤ n) (lag : ℤ) :
    xcorr (resize s n 0) (resize t n 0) lag = xcorr s t lag := by
  unfold xcorr
  rw [resize_length]
  have : ∀ j ∈ range n, j ∉ range t.length →
      sampleAt (resize s n 0) (j + lag) * sampleAt (resize t n 0) j = 0 := by
    intro j _ hj
    rw [sampleAt_resize t n _ h2]
    have : sampleAt t j = 0 := by
      unfold sampleAt; rw [if_pos (by positivity)]
      simp only [Int.toNat_natCast, List.getD]
      rw [List.getElem?_eq_none (by simpa using hj)]; rfl
    rw [this, mul_zero]
  rw [← Finset.sum_subset (Finset.range_subset_range.mpr h2) this]
  apply Finset.sum_congr rfl
  intro j _
  rw [sampleAt_resize s n _ h1, sampleAt_resize t n _ h2]

/-- The correlation vector handed to the maximum search. -/
theorem inverseFftPointwiseProduct_real (p : Profile) (s1 s2 : List ℝ)
    (h9 : 9 ≤ max s1.length s2.length) (hbig : max s1.length s2.length ≤ 2 ^ 62) :
    inverseFftPointwiseProduct p s1 s2 =
      .ok ((List.range (xcorrPoints (max s1.length s2.length))).map
        (circCorr (resize s1 (max s1.length s2.length) 0) (resize s2 (max s1.length s2.length) 0)
          (xcorrPoints (max s1.length s2.length)))) := by
  unfold inverseFftPointwiseProduct
  simp only [resize_length, real_lit0]
  generalize hn : max s1.length s2.length = n at *
  rw [usub_of_le (by omega)]
  simp only [ok_bind, real_ofNat]
  have e : n * 2 - 1 = 2 * n - 1 := by omega
  rw [e, frexpExp_real (by omega) (by omega)]
  have hlog : Nat.log 2 (2 * n - 1) < 63 := Nat.log_lt_of_lt_pow (by omega) (by omega)
  have hp : pow2 p ((Nat.log 2 (2 * n - 1) : ℤ) + 1) = .ok (xcorrPoints n) := by
    unfold pow2 xcorrPoints
    rw [if_pos (by constructor <;> omega)]
    congr 2
  rw [hp]
  have hm : FftManager.new p (xcorrPoints n) = .ok ⟨xcorrPoints n, xcorrPoints n⟩ := by
    unfold FftManager.new
    have := C41_exact_on_powers p (Nat.log 2 (2 * n - 1) + 1) (by omega)
    unfold xcorrPoints at *
    rw [this]
    simp only [ok_bind]
    have h32 := xcorrPoints_ge32 h9
    unfold xcorrPoints at h32
    congr 2
    omega
  simp only [ok_bind, hm]
  have := xcorrPoints_ge (n := n) (by omega)
  exact inverse_prod_real (by omega) (by rw [resize_length]; omega) (by rw [resize_length]; omega)

/-- The list of correlations at lags `-(n-1), ..., n-1`. -/
theorem corr_list (s1 s2 : List ℝ) (n : ℕ) (h1 : s1.length ≤ n) (h2 : s2.length ≤ n) (hn : 1 ≤ n) :
    let v := (List.range (xcorrPoints n)).map (circCorr (resize s1 n 0) (resize s2 n 0) (xcorrPoints n))
    (v.drop (v.length - (n - 1))).take (v.length - (v.length - (n - 1))) ++ (v.drop 0).take (n - 1 + 1 - 0) =
      (List.range (2 * n - 1)).map fun i : ℕ => xcorr s1 s2 ((i : ℤ) - ((n - 1 : ℕ) : ℤ)) := by
  intro v
  have hN := xcorrPoints_ge hn
  have hv : v.length = xcorrPoints n := by simp [v]
  have cc : ∀ (m : ℕ) (lag : ℤ), |lag| < n → ((xcorrPoints n : ℕ) : ℤ) ∣ (m : ℤ) - lag →
      circCorr (resize s1 n 0) (resize s2 n 0) (xcorrPoints n) m = xcorr s1 s2 lag := by
    intro m lag hl hm
    rw [circCorr_eq_xcorr (resize_length _ _ _) (resize_length _ _ _) hN lag hl hm, xcorr_resize s1 s2 n h1 h2]
  apply List.ext_getElem?
  intro i
  rw [hv]
  by_cases hi : i < n - 1
  · rw [List.getElem?_append_left (by simp [hv]; omega), List.getElem?_take_of_lt (by omega), List.getElem?_drop]
    simp only [v, List.getElem?_map]
    rw [List.getElem?_range (by omega), List.getElem?_range (by omega)]
    simp only [Option.map_some, Option.some.injEq]
    apply cc
    · rw [abs_lt]; constructor <;> omega
    · refine ⟨1, ?_⟩; push_cast; omega
  · by_cases hi2 : i < 2 * n - 1
    · have hl1 : ((v.drop (xcorrPoints n - (n - 1))).take (xcorrPoints n - (xcorrPoints n - (n - 1)))).length = n - 1 := by
        simp [hv]; omega
      rw [List.getElem?_append_right (by omega), hl1, List.drop_zero, List.getElem?_take_of_lt (by omega)]
      simp only [v, List.getElem?_map]
      rw [List.getElem?_range (by omega), List.getElem?_range (by omega)]
      simp only [Option.map_some, Option.some.injEq]
      apply cc
      · rw [abs_lt]; constructor <;> omega
      · refine ⟨0, ?_⟩; omega
    · rw [List.getElem?_eq_none (by simp [hv]; omega), List.getElem?_eq_none (by simp; omega)]

theorem foldl_maxAbs : ∀ (l : List ℝ) (a : ℝ), (l.foldl (fun acc y => if |y| < |acc| then acc else y) a) ∈ a :: l ∧
    ∀ x ∈ a :: l, |x| ≤ |l.foldl (fun acc y => if |y| < |acc| then acc else y) a|
  | [], a => by simp
  | b :: l, a => by
    simp only [List.foldl_cons]
    by_cases h : |b| < |a|
    · rw [if_pos h]
      obtain ⟨h2, h3⟩ := foldl_maxAbs l a
      refine ⟨?_, ?_⟩
      · rcases List.mem_cons.mp h2 with h2 | h2
        · rw [h2]; simp
        · simp [h2]
      · intro x hx
        rcases List.mem_cons.mp hx with rfl | hx
        · exact h3 _ (by simp)
        · rcases List.mem_cons.mp hx with rfl | hx
          · exact le_trans h.le (h3 a (by simp))
          · exact h3 x (by simp [hx])
    · rw [if_neg h]
      obtain ⟨h2, h3⟩ := foldl_maxAbs l b
      refine ⟨List.mem_cons_of_mem _ h2, ?_⟩
      intro x hx
      rcases List.mem_cons.mp hx with rfl | hx
      · exact le_trans (not_lt.mp h) (h3 b (by simp))
      · exact h3 x hx

theorem foldl_maxAbs_last (l : List ℝ) : ∀ a : ℝ, ∃ l1 l2,
    a :: l = l1 ++ l.foldl (fun acc y => if |y| < |acc| then acc else y) a :: l2 ∧
      ∀ x ∈ l2, |x| < |l.foldl (fun acc y => if |y| < |acc| then acc else y) a| := by
  induction l with
  | nil => intro a; exact ⟨[], [], rfl, by simp⟩
  | cons b l ih =>
    intro a
    rw [List.foldl_cons]
    by_cases h : |b| < |a|
    · rw [if_pos h]
      obtain ⟨l1, l2, h1, h2⟩ := ih a
      obtain ⟨_, h3⟩ := foldl_maxAbs l a
      have ha := h3 a (by simp)
      generalize l.foldl (fun acc y => if |y| < |acc| then acc else y) a = m at *
      cases l1 with
      | nil =>
        rw [List.nil_append, List.cons.injEq] at h1
        refine ⟨[], b :: l, by rw [h1.1]; rfl, fun x hx => ?_⟩
        rcases List.mem_cons.mp hx with rfl | hx
        · rw [← h1.1]; exact h
        · exact h2 x (h1.2 ▸ hx)
      | cons c l1 =>
        rw [List.cons_append, List.cons.injEq] at h1
        exact ⟨a :: b :: l1, l2, by rw [h1.2]; rfl, h2⟩
    · rw [if_neg h]
      obtain ⟨l1, l2, h1, h2⟩ := ih b
      exact ⟨a :: l1, l2, by rw [h1]; rfl, h2⟩

/-- `max_by` on absolute values over the reals. -/
theorem maxByAbs_real (l : List ℝ) (hl : l ≠ []) :
    ∃ m ∈ l, maxByAbs l = .ok (some m) ∧ (∀ x ∈ l, |x| ≤ |m|) ∧ ∃ l1 l2, l = l1 ++ m :: l2 ∧ ∀ x ∈ l2, |x| < |m| := by
  cases l with
  | nil => exact absurd rfl hl
  | cons a l =>
    obtain ⟨h2, h3⟩ := foldl_maxAbs l a
    refine ⟨_, h2, ?_, h3, foldl_maxAbs_last l a⟩
    unfold maxByAbs
    dsimp only
    rw [foldE_of_forall (g := fun acc y => if |y| < |acc| then acc else y)]
    · rfl
    · intro y _ acc
      rw [real_partialCmp]
      simp only [expect, ok_bind, real_abs]
      congr 1
      by_cases h : |y| < |acc|
      · rw [if_neg (not_lt.mpr h.le), if_pos h, if_pos rfl, if_pos h]
      · rw [if_neg h, if_neg h]
        split
        · simp at *
        · simp at *

end Visqol
