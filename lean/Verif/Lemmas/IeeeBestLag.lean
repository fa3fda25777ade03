import Verif.Lemmas.IeeeXcorr
import Verif.Lemmas.IeeeLag

/-! # Floating point: the lag found nearly maximises the cross-correlation -/

set_option linter.unusedSectionVars false

namespace Visqol
open Ieee
open Finset (range)

variable {F : Type} [Flt F] [Ieee F]

/-- The largest of finite values is found and is one of them. -/
theorem maxByAbs_max {l : List F} (hl : l ≠ []) {v : F → ℝ} (h : ∀ a ∈ l, Is a (v a)) :
    ∃ m ∈ l, maxByAbs l = .ok (some m) ∧ ∀ a ∈ l, |v a| ≤ |v m| := by
  obtain ⟨a, t, rfl⟩ := List.exists_cons_of_ne_nil hl
  have key : ∀ (t' : List F) (b : F), b ∈ a :: t → (∀ c ∈ t', c ∈ a :: t) → ∃ m ∈ a :: t, foldE (fun acc y => do
      let c ← expect (Flt.partialCmp (Flt.abs acc) (Flt.abs y))
      .ok (if c = .gt then acc else y)) b t' = .ok m ∧ |v b| ≤ |v m| ∧ ∀ c ∈ t', |v c| ≤ |v m| := by
    intro t'
    induction t' with
    | nil => intro b hb _; exact ⟨b, hb, rfl, le_rfl, by simp⟩
    | cons c t' ih =>
      intro b hb ht
      have hx := h b hb
      have hy := h c (ht c (by simp))
      unfold foldE
      rw [partialCmp_fin hx.abs hy.abs]
      generalize ho' : (if |v b| < |v c| then Ordering.lt else if |v c| < |v b| then Ordering.gt else Ordering.eq) = o
      have ho : expect (some o) = .ok o := rfl
      rw [ho, ok_bind, ok_bind]
      by_cases hg : o = .gt
      · rw [if_pos hg]
        obtain ⟨m, h1, h2, h3, h4⟩ := ih b hb (fun d hd => ht d (by simp [hd]))
        have hlt : |v c| ≤ |v b| := by
          by_contra hc
          rw [if_pos (not_le.mp hc)] at ho'
          rw [← ho'] at hg
          cases hg
        exact ⟨m, h1, h2, h3, by simpa using ⟨hlt.trans h3, h4⟩⟩
      · rw [if_neg hg]
        obtain ⟨m, h1, h2, h3, h4⟩ := ih c (ht c (by simp)) (fun d hd => ht d (by simp [hd]))
        have hle : |v b| ≤ |v c| := by
          by_contra hc
          have hc := not_le.mp hc
          rw [if_neg (by linarith), if_pos hc] at ho'
          exact hg ho'.symm
        exact ⟨m, h1, h2, hle.trans h3, by simpa using ⟨h3, h4⟩⟩
  obtain ⟨m, hm, hf, hb, hall⟩ := key t a (by simp) (fun c hc => by simp [hc])
  refine ⟨m, hm, ?_, by simpa using ⟨hb, hall⟩⟩
  unfold maxByAbs
  dsimp only
  rw [hf]; rfl

theorem circCorr_resize (x1 x2 : List ℝ) {n N m : ℕ} (h1 : x1.length ≤ n) (h2 : x2.length ≤ n) :
    circCorr (resize x1 n 0) (resize x2 n 0) N m = circCorr x1 x2 N m := by
  unfold circCorr
  refine Finset.sum_congr rfl fun a _ => Finset.sum_congr rfl fun b _ => ?_
  rw [getD_resize _ _ _ h1, getD_resize _ _ _ h2]

variable [RustFft F] [AccurateFft F]

/-- The lag found is optimal up to the error of the correlations. -/
theorem bestLag_near [Libm F] {p : Profile} {s1 s2 : List F} {x1 x2 : List ℝ} (hv1 : Vals s1 x1) (hv2 : Vals s2 x2) {n : ℕ}
    (hn : n = max s1.length s2.length) (h9 : 9 ≤ n) (h24 : n ≤ 2 ^ 24) (hA1 : nrm n (seqC x1) ≤ 2 ^ 40) (hA2 : nrm n (seqC x2) ≤ 2 ^ 40) :
    ∃ lag : ℤ, calculateBestLag p s1 s2 = .ok (some lag) ∧ |lag| < n ∧ ∀ k : ℤ, |k| < n →
      |xcorr x1 x2 k| ≤ |xcorr x1 x2 lag| + 2 * (4 * Real.sqrt n * ((nrm n (seqC x1) + 1) * (nrm n (seqC x2) + 1)) / 2 ^ 40) := by
  obtain ⟨v, vs, hv, hvl, hvv, hve⟩ := corr_acc (p := p) hv1 hv2 hn h9 h24 hA1 hA2
  have hl1 := hv1.length
  have hl2 := hv2.length
  generalize 4 * Real.sqrt n * ((nrm n (seqC x1) + 1) * (nrm n (seqC x2) + 1)) / 2 ^ 40 = E at *
  have hN := xcorrPoints_ge (n := n) (by omega)
  have cc : ∀ (m : ℕ) (lag : ℤ), |lag| < n → ((xcorrPoints n : ℕ) : ℤ) ∣ (m : ℤ) - lag →
      circCorr x1 x2 (xcorrPoints n) m = xcorr x1 x2 lag := by
    intro m lag hl hm
    rw [← circCorr_resize x1 x2 (n := n) (by omega) (by omega),
      circCorr_eq_xcorr (resize_length _ _ _) (resize_length _ _ _) hN lag hl hm, xcorr_resize x1 x2 n (by omega) (by omega)]
  generalize xcorrPoints n = P at *
  unfold calculateBestLag
  rw [← hn, usub_of_le (by omega)]
  simp only [ok_bind]
  rw [hv]
  simp only [ok_bind]
  rw [usub_of_le (by omega)]
  simp only [ok_bind]
  rw [sliceM_of_le (by omega) (by omega), sliceM_of_le (by omega) (by omega)]
  simp only [ok_bind]
  generalize hcs : List.take (v.length - (v.length - (n - 1))) (List.drop (v.length - (n - 1)) v) ++
    List.take (n - 1 + 1 - 0) (List.drop 0 v) = cs
  have hlen : cs.length = 2 * n - 1 := by rw [← hcs]; simp; omega
  -- every entry is near the correlation at its lag
  have hent : ∀ j (hj : j < cs.length), ∃ y, Is cs[j] y ∧ |y - xcorr x1 x2 ((j : ℤ) - ((n - 1 : ℕ) : ℤ))| ≤ E := by
    intro j hj
    have hfl : (List.take (v.length - (v.length - (n - 1))) (List.drop (v.length - (n - 1)) v)).length = n - 1 := by simp; omega
    by_cases hjn : j < n - 1
    · have e : cs[j] = v[v.length - (n - 1) + j]'(by omega) := by
        subst hcs
        rw [List.getElem_append_left (by omega), List.getElem_take, List.getElem_drop]
      rw [e]
      refine ⟨_, hvv.get _, ?_⟩
      have := hve (v.length - (n - 1) + j) (by omega)
      rwa [cc _ ((j : ℤ) - ((n - 1 : ℕ) : ℤ)) (by rw [abs_lt]; constructor <;> omega) ⟨1, by omega⟩] at this
    · have e : cs[j] = v[j - (n - 1)]'(by omega) := by
        subst hcs
        rw [List.getElem_append_right (by omega), List.getElem_take, List.getElem_drop]
        congr 1; omega
      rw [e]
      refine ⟨_, hvv.get _, ?_⟩
      have := hve (j - (n - 1)) (by omega)
      rwa [cc _ ((j : ℤ) - ((n - 1 : ℕ) : ℤ)) (by rw [abs_lt]; constructor <;> omega) ⟨0, by omega⟩] at this
  have hfin : ∀ a : F, ∃ x : ℝ, a ∈ cs → Is a x := by
    intro a
    by_cases ha : a ∈ cs
    · obtain ⟨j, hj, rfl⟩ := List.getElem_of_mem ha
      obtain ⟨y, hy, _⟩ := hent j hj
      exact ⟨y, fun _ => hy⟩
    · exact ⟨0, fun h => absurd h ha⟩
  choose w hw using hfin
  have hne : cs ≠ [] := by intro h; rw [h] at hlen; simp at hlen; omega
  have hgood : ∀ j (hj : j < cs.length), |w cs[j] - xcorr x1 x2 ((j : ℤ) - ((n - 1 : ℕ) : ℤ))| ≤ E := by
    intro j hj
    obtain ⟨y, hy, hyE⟩ := hent j hj
    have h2 : Is cs[j] (w cs[j]) := hw cs[j] (List.getElem_mem _)
    have : w cs[j] = y := by
      have := h2.symm.trans hy
      simpa using this
    rwa [this]
  obtain ⟨b, hb, hmax, hbest⟩ := maxByAbs_max hne hw
  rw [hmax]
  simp only [ok_bind]
  cases hf : cs.findIdx? (fun r => Flt.eq r b) with
  | none =>
    rw [List.findIdx?_eq_none_iff] at hf
    have := hf b hb
    rw [(hw b hb).eq (hw b hb)] at this
    simp at this
  | some i =>
    obtain ⟨hlt, heq, _⟩ := List.findIdx?_eq_some_iff_getElem.mp hf
    rw [(hw cs[i] (List.getElem_mem _)).eq (hw b hb)] at heq
    have heq : w cs[i] = w b := by simpa using heq
    refine ⟨_, rfl, by rw [abs_lt]; constructor <;> omega, fun k hk => ?_⟩
    obtain ⟨k1, k2⟩ := abs_lt.mp hk
    have hj : (k + ((n - 1 : ℕ) : ℤ)).toNat < cs.length := by omega
    have g1 := hgood _ hj
    rw [show (((k + ((n - 1 : ℕ) : ℤ)).toNat : ℕ) : ℤ) - ((n - 1 : ℕ) : ℤ) = k by omega] at g1
    have g2 := hgood i hlt
    have g3 := hbest _ (List.getElem_mem hj)
    rw [← heq] at g3
    have t1 := abs_sub_abs_le_abs_sub (xcorr x1 x2 k) (w cs[(k + ((n - 1 : ℕ) : ℤ)).toNat])
    rw [abs_sub_comm] at t1
    have t2 := abs_sub_abs_le_abs_sub (w cs[i]) (xcorr x1 x2 ((i : ℤ) - ((n - 1 : ℕ) : ℤ)))
    linarith

end Visqol
