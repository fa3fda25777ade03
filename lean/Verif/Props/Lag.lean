import Verif.Lemmas.Xcorr
import Verif.Spec.Lag

/-! # C40: the best lag maximises the cross-correlation -/

namespace Visqol
open Finset

/-- The best lag, including how ties are broken: among lags with the same cross-correlation the smallest is returned. -/
theorem bestLag_spec (p : Profile) (s1 s2 : List ℝ) (h9 : 9 ≤ max s1.length s2.length)
    (hbig : max s1.length s2.length ≤ 2 ^ 62) :
    ∃ lag : ℤ, calculateBestLag p s1 s2 = .ok (some lag) ∧ |lag| < max s1.length s2.length ∧
      (∀ k : ℤ, |k| < max s1.length s2.length → |xcorr s1 s2 k| ≤ |xcorr s1 s2 lag| ∧
        (xcorr s1 s2 k = xcorr s1 s2 lag → lag ≤ k)) ∧
      ∃ last : ℤ, |last| < max s1.length s2.length ∧ xcorr s1 s2 last = xcorr s1 s2 lag ∧
        ∀ k : ℤ, last < k → k < max s1.length s2.length → |xcorr s1 s2 k| < |xcorr s1 s2 lag| := by
  unfold calculateBestLag
  rw [inverseFftPointwiseProduct_real p s1 s2 h9 hbig]
  have hc := corr_list s1 s2 (max s1.length s2.length) (by omega) (by omega) (by omega)
  have hN := xcorrPoints_ge (n := max s1.length s2.length) (by omega)
  generalize max s1.length s2.length = n at *
  rw [usub_of_le (by omega)]
  simp only [ok_bind] at hc ⊢
  generalize hv : (List.range (xcorrPoints n)).map (circCorr (resize s1 n 0) (resize s2 n 0) (xcorrPoints n)) = v at *
  have hl : v.length = xcorrPoints n := by rw [← hv]; simp
  rw [usub_of_le (by omega)]
  simp only [ok_bind]
  rw [sliceM_of_le (by omega) (by omega), sliceM_of_le (by omega) (by omega)]
  simp only [ok_bind]
  rw [hc]
  generalize hcs : (List.range (2 * n - 1)).map (fun i : ℕ => xcorr s1 s2 ((i : ℤ) - ((n - 1 : ℕ) : ℤ))) = cs
  have hmem : ∀ x, x ∈ cs ↔ ∃ k : ℤ, |k| < n ∧ x = xcorr s1 s2 k := by
    intro x
    rw [← hcs, List.mem_map]
    constructor
    · rintro ⟨i, hi, rfl⟩
      have := List.mem_range.mp hi
      exact ⟨_, by rw [abs_lt]; constructor <;> omega, rfl⟩
    · rintro ⟨k, hk, rfl⟩
      obtain ⟨h1, h2⟩ := abs_lt.mp hk
      refine ⟨(k + (n - 1 : ℕ)).toNat, List.mem_range.mpr (by omega), ?_⟩
      congr 1; omega
  have hne : cs ≠ [] := by
    intro h
    have := (hmem (xcorr s1 s2 0)).mpr ⟨0, by simp; omega, rfl⟩
    rw [h] at this; simp at this
  obtain ⟨best, hb1, hb2, hb3, l1, l2, hb4, hb5⟩ := maxByAbs_real cs hne
  rw [hb2]
  simp only [ok_bind]
  obtain ⟨i, hi⟩ : ∃ i, cs.findIdx? (fun r => Flt.eq r best) = some i := by
    cases hf : cs.findIdx? (fun r => Flt.eq r best) with
    | some i => exact ⟨i, rfl⟩
    | none =>
      rw [List.findIdx?_eq_none_iff] at hf
      have := hf best hb1
      simp at this
  rw [hi]
  simp only
  obtain ⟨hlt, heq, hfirst⟩ := List.findIdx?_eq_some_iff_getElem.mp hi
  have hlen : cs.length = 2 * n - 1 := by rw [← hcs]; simp
  have heq' : cs[i] = best := by simpa using heq
  have hget : cs[i] = xcorr s1 s2 ((i : ℤ) - ((n - 1 : ℕ) : ℤ)) := by
    simp only [← hcs, List.getElem_map, List.getElem_range]
  have hk' : ∀ k : ℕ, (hk : k < cs.length) → cs[k] = xcorr s1 s2 ((k : ℤ) - ((n - 1 : ℕ) : ℤ)) := by
    intro k hk
    simp only [← hcs, List.getElem_map, List.getElem_range]
  refine ⟨_, rfl, by rw [abs_lt]; constructor <;> omega, ?_, ?_⟩
  swap
  · have hl12 : l1.length + 1 + l2.length = 2 * n - 1 := by rw [← hlen, hb4]; simp; omega
    have e1 : cs[l1.length]'(by omega) = best := by
      simp only [hb4]; rw [List.getElem_append_right (by omega)]; simp
    refine ⟨(l1.length : ℤ) - ((n - 1 : ℕ) : ℤ), by rw [abs_lt]; constructor <;> omega, ?_, fun k hk1 hk2 => ?_⟩
    · rw [← hk' _ (by omega), e1, ← hget, heq']
    · have hidx : (k + (n - 1 : ℕ)).toNat < cs.length := by omega
      have e2 : xcorr s1 s2 k = cs[(k + (n - 1 : ℕ)).toNat] := by
        rw [hk' _ hidx]; congr 1; omega
      rw [← hget, heq', e2]
      apply hb5
      simp only [hb4]
      rw [List.getElem_append_right (by omega), List.getElem_cons, dif_neg (by omega)]
      exact List.getElem_mem _
  intro k hk
  rw [← hget, heq']
  refine ⟨hb3 _ ((hmem _).mpr ⟨k, hk, rfl⟩), fun he => ?_⟩
  by_contra hlt'
  obtain ⟨k1, k2⟩ := abs_lt.mp hk
  have hj := hfirst (k + (n - 1 : ℕ)).toNat (by omega)
  have hgj : cs[(k + (n - 1 : ℕ)).toNat]'(by omega) = xcorr s1 s2 k := by
    simp only [← hcs, List.getElem_map, List.getElem_range]
    congr 1; omega
  rw [hgj, he] at hj
  simp at hj

/-- C40: for signals whose longer length `n` is at least 9 (and at most `2^62`), `calculate_best_lag` returns the lag strictly
between `-n` and `n` at which the absolute linear cross-correlation is maximal among all lags in that range; of several such lags
the last decides on the sign of the correlation and the first with that sign is returned. -/
theorem C40_best_lag (p : Profile) (s1 s2 : List ℝ) (h9 : 9 ≤ max s1.length s2.length)
    (hbig : max s1.length s2.length ≤ 2 ^ 62) :
    ∃ lag : ℤ, calculateBestLag p s1 s2 = .ok (some lag) ∧ Spec.IsBestLag s1 s2 lag := by
  obtain ⟨lag, h1, h2, h3, h4⟩ := bestLag_spec p s1 s2 h9 hbig
  exact ⟨lag, h1, h2, fun k hk => (h3 k hk).1, fun k hk => (h3 k hk).2, h4⟩

/-- Two signals meeting the hypotheses. -/
example : ∃ s1 s2 : List ℝ, 9 ≤ max s1.length s2.length ∧ max s1.length s2.length ≤ 2 ^ 62 ∧ s1 ≠ s2 ∧ xcorr s1 s2 2 = 3 := by
  refine ⟨[0, 0, 0, 1, 0, 0, 0, 0, 0, 0], [0, 3, 0], by decide, by decide, by simp, ?_⟩
  simp [xcorr, sampleAt, Finset.sum_range_succ]

end Visqol
