import Verif.Lemmas.IeeeQuality
import Verif.Props.OptimalRounded
import Verif.Lemmas.Aggregate
import Verif.Lemmas.Shape
import Verif.Spec.Finite
import Verif.Spec.Stats

/-! # Accuracy of running sums in floating point -/

set_option linter.unusedSectionVars false

namespace Visqol
open Ieee
variable {F : Type} [Flt F] [Ieee F]

/-- The error of a running sum after `k` additions of numbers of at most `B`. -/
noncomputable def sumErr (B : ℝ) (k : ℕ) : ℝ := k * (k + 1) * (B / 2 ^ 51)

theorem sumErr_nonneg {B : ℝ} (h : 1 ≤ B) (k : ℕ) : 0 ≤ sumErr B k := by
  have : 0 ≤ B := by linarith
  unfold sumErr; positivity

theorem sumErr_mono {B : ℝ} (h : 1 ≤ B) {j k : ℕ} (hjk : j ≤ k) : sumErr B j ≤ sumErr B k := by
  have : 0 ≤ B := by linarith
  have hc : (j : ℝ) ≤ k := by exact_mod_cast hjk
  unfold sumErr
  gcongr

/-- One addition to a running sum. -/
theorem sum_step {B : ℝ} (hB1 : 1 ≤ B) (hB2 : B ≤ 2 ^ 900) {a b : F} {s x t : ℝ} {k : ℕ} (hk : k + 1 ≤ 2 ^ 48) (ha : Is a s) (hb : Is b x)
    (hs : |s - t| ≤ sumErr B k) (ht : |t| ≤ k * B) (hx : |x| ≤ B) :
    ∃ y, Is (a + b) y ∧ Is (b + a) y ∧ |y - (t + x)| ≤ sumErr B (k + 1) ∧ |t + x| ≤ (k + 1 : ℕ) * B := by
  have hB0 : 0 < B := by linarith
  have hk1 : (k : ℝ) + 1 ≤ 2 ^ 48 := by exact_mod_cast hk
  have hk0 : (0 : ℝ) ≤ k := Nat.cast_nonneg k
  have hsm : sumErr B k ≤ k * B := by
    unfold sumErr
    have h1 : ((k : ℝ) + 1) / 2 ^ 51 ≤ 1 := by rw [div_le_one (by norm_num)]; exact hk1.trans (by norm_num)
    have h2 := mul_le_mul_of_nonneg_left h1 (mul_nonneg hk0 hB0.le)
    calc (k : ℝ) * (k + 1) * (B / 2 ^ 51) = k * B * (((k : ℝ) + 1) / 2 ^ 51) := by ring
      _ ≤ k * B * 1 := h2
      _ = k * B := mul_one _
  have h1 : |s + x| ≤ 2 * (k + 1) * B := by
    have e : s + x = (s - t) + (t + x) := by ring
    rw [e]
    have i1 := abs_add_le (s - t) (t + x)
    have i2 := abs_add_le t x
    clear hB2
    linarith
  have h2 : (1 : ℝ) ≤ 2 * (k + 1) * B := by
    have : (1 : ℝ) * 1 ≤ (2 * (k + 1)) * B := mul_le_mul (by linarith) hB1 (by norm_num) (by linarith)
    linarith
  have h3 : 2 * ((k : ℝ) + 1) * B ≤ 2 ^ 1000 := by
    calc 2 * ((k : ℝ) + 1) * B ≤ 2 * 2 ^ 48 * 2 ^ 900 := by gcongr
      _ = 2 ^ 949 := by rw [mul_assoc, ← pow_add, ← pow_succ']
      _ ≤ 2 ^ 1000 := two_pow_mono (by norm_num)
  obtain ⟨y, hy, he⟩ := rnd_err F h1 h2 h3
  refine ⟨y, (Is.add ha hb).trans hy, (Is.add hb ha).trans (by rw [add_comm x s]; exact hy), ?_, ?_⟩
  · have e : y - (t + x) = (y - (s + x)) + (s - t) := by ring
    rw [e]
    refine (abs_add_le _ _).trans ?_
    have e2 : sumErr B (k + 1) = sumErr B k + 2 * ((k : ℝ) + 1) * B / 2 ^ 51 := by unfold sumErr; push_cast; ring
    rw [e2]
    clear h3 hB2
    linarith
  · have := abs_add_le t x
    push_cast
    clear h3 hB2
    linarith

/-- The running total of a choice is close to the exact total. -/
theorem runningTotal_acc {B : ℝ} (hB1 : 1 ≤ B) (hB2 : B ≤ 2 ^ 900) {s : Nat → Nat → F} {v : Nat → Nat → ℝ} {N : Nat} {n : ℕ}
    (hs : ∀ k o, k < n → o < N → Is (s k o) (v k o) ∧ |v k o| ≤ B) (hn : n ≤ 2 ^ 48) :
    ∀ (c : List (Option Nat)), c.length ≤ n → (∀ o ∈ c.filterMap id, o < N) →
      (runningTotal s c = none → totalSim v c = 0) ∧
      ∀ t, runningTotal s c = some t → ∃ x, Is t x ∧ |x - totalSim v c| ≤ sumErr B c.length ∧ |totalSim v c| ≤ c.length * B := by
  intro c
  induction c using List.reverseRecOn with
  | nil => intro _ _; exact ⟨fun _ => by simp [totalSim], fun t ht => by simp [runningTotal] at ht⟩
  | append_singleton c x ih =>
    intro hc hN
    rw [List.length_append, List.length_singleton] at hc
    obtain ⟨i1, i2⟩ := ih (by omega) (fun o ho => hN o (by rw [List.filterMap_append, List.mem_append]; exact .inl ho))
    have hlen : (c ++ [x]).length = c.length + 1 := by simp
    rw [runningTotal_concat, totalSim_concat, hlen]
    have hB0 : 0 < B := by linarith
    have hcB : (c.length : ℝ) * B ≤ ((c.length + 1 : ℕ) : ℝ) * B := by push_cast; linarith
    cases x with
    | none =>
      simp only [Option.elim_none, add_zero]
      refine ⟨i1, fun t ht => ?_⟩
      obtain ⟨y, h1, h2, h3⟩ := i2 t ht
      exact ⟨y, h1, h2.trans (sumErr_mono hB1 (by omega)), h3.trans hcB⟩
    | some o =>
      have ho := hN o (by rw [List.filterMap_append]; simp)
      obtain ⟨k1, k2⟩ := hs c.length o (by omega) ho
      simp only [Option.elim_some]
      cases hr : runningTotal s c with
      | none =>
        refine ⟨fun h => by simp at h, fun t ht => ?_⟩
        simp only [Option.some.injEq] at ht
        subst ht
        refine ⟨_, k1, ?_, ?_⟩
        · rw [i1 hr, zero_add, sub_self, abs_zero]; exact sumErr_nonneg hB1 _
        · rw [i1 hr, zero_add]
          refine k2.trans ?_
          push_cast
          have : 0 ≤ (c.length : ℝ) * B := by positivity
          linarith
      | some t' =>
        refine ⟨fun h => by simp at h, fun t ht => ?_⟩
        simp only [Option.some.injEq] at ht
        subst ht
        obtain ⟨y, h1, h2, h3⟩ := i2 t' hr
        obtain ⟨z, _, z2, z3, z4⟩ := sum_step hB1 hB2 (k := c.length) (by omega) h1 k1 h2 h3 k2
        exact ⟨z, z2, z3, z4⟩

/-! ## Means -/

theorem number_of {a : F} {x : ℝ} (h : val a = .fin x) : number a = x := by unfold number; rw [h]

theorem is_number {a : F} (h : ∃ x, val a = .fin x) : Is a (number a) := by
  obtain ⟨x, hx⟩ := h
  rw [number_of hx]; exact hx

theorem vals_number {v : List F} (hv : ∀ a ∈ v, ∃ x, val a = .fin x) : v.map val = (v.map number).map .fin := by
  rw [List.map_map]
  exact List.map_congr_left fun a ha => is_number (hv a ha)

/-- The mean of up to 32 numbers as `ndarray` computes it. -/
theorem mean_acc [Libm F] {v : List F} (hv : ∀ a ∈ v, ∃ x, val a = .fin x ∧ |x| ≤ 2 ^ 18) (h0 : 0 < v.length) (h1 : v.length ≤ 32) :
    ∃ y, Is (Flt.sum v / Flt.ofNat v.length) y ∧ |y - mean (v.map number)| ≤ 1 / 2 ^ 20 := by
  have e := vals_number fun a ha => (hv a ha).imp fun _ h => h.1
  have b : ∀ x ∈ v.map number, |x| ≤ 2 ^ 18 := by
    intro x hx
    obtain ⟨a, ha, rfl⟩ := List.mem_map.mp hx
    obtain ⟨x, h1, h2⟩ := hv a ha
    rw [number_of h1]; exact h2
  unfold mean
  rw [List.length_map]
  have hE := abs_sum_le b
  rw [List.length_map] at hE
  have hc1 : (1 : ℝ) ≤ v.length := by exact_mod_cast h0
  have hc2 : (v.length : ℝ) ≤ 32 := by exact_mod_cast h1
  have hn := val_nat (F := F) (n := v.length) (by omega)
  obtain ⟨t, ht, hte⟩ := Libm.sum_acc v _ (2 ^ 18) e (by norm_num) (two_pow_mono (by norm_num)) b (by omega)
  generalize hnn : (v.length : ℝ) = n at *
  generalize hS : (v.map number).sum = S at *
  have hnp : 0 < n := by linarith
  have hm : |S / n| ≤ 2 ^ 18 := by
    rw [abs_div, abs_of_pos hnp, div_le_iff₀ hnp]; linarith
  have hd1 : |t / n - S / n| ≤ 32 * 2 ^ 18 / 2 ^ 50 := by
    rw [← sub_div, abs_div, abs_of_pos hnp, div_le_iff₀ hnp]
    refine hte.trans ?_
    rw [div_le_iff₀ (by norm_num), div_mul_eq_mul_div, div_mul_cancel₀ _ (by norm_num)]
    nlinarith
  obtain ⟨m1, m2⟩ := abs_le.mp hm
  obtain ⟨p1, p2⟩ := abs_le.mp hd1
  have hB1 : |t / n| ≤ 2 ^ 18 + 1 := by rw [abs_le]; constructor <;> norm_num at * <;> linarith
  have hbig : (2 : ℝ) ^ 18 + 1 ≤ 2 ^ 1000 := le_trans (by norm_num) (two_pow_mono (m := 19) (by norm_num))
  obtain ⟨y, hy, hye⟩ := rnd_err F hB1 (by norm_num) hbig
  clear hbig
  obtain ⟨a1, a2⟩ := abs_le.mp hye
  refine ⟨y, (Is.div (show Is _ t from ht) hn hnp.ne').trans hy, ?_⟩
  rw [abs_le]; constructor <;> norm_num at * <;> linarith

theorem foldBands_acc {B : ℝ} (hB1 : 1 ≤ B) (hB2 : B ≤ 2 ^ 900) {sel : PatchSim F → List F} {b : ℕ} : ∀ {ps : List (PatchSim F)} {acc r : List F} {k : ℕ}
    {a : F} {s t : ℝ}, foldE (fun acc q => addBands acc (sel q)) acc ps = .ok r → acc[b]? = some a → Is a s → |s - t| ≤ sumErr B k → |t| ≤ k * B →
      (∀ q ∈ ps, ∀ c ∈ sel q, ∃ x, val c = .fin x ∧ |x| ≤ B) → k + ps.length ≤ 2 ^ 48 →
      ∃ c y, r[b]? = some c ∧ Is c y ∧ |y - (t + (ps.map fun q => number ((sel q).getD b 0.0)).sum)| ≤ sumErr B (k + ps.length) ∧
        |t + (ps.map fun q => number ((sel q).getD b 0.0)).sum| ≤ (k + ps.length : ℕ) * B
  | [], acc, r, k, a, s, t, h, ha, hs, h1, h2, _, _ => by
    cases h
    exact ⟨a, s, ha, hs, by simpa using h1, by simpa using h2⟩
  | q :: ps, acc, r, k, a, s, t, h, ha, hs, h1, h2, hb, hk => by
    obtain ⟨acc1, g1, h⟩ := bind_ok h
    obtain ⟨hl, hv⟩ := addBands_ok g1
    obtain ⟨hlt, rfl⟩ := List.getElem?_eq_some_iff.mp ha
    obtain ⟨y, hy, hr⟩ := hv b hlt
    obtain ⟨x, hx, hxb⟩ := hb q List.mem_cons_self y (List.mem_of_getElem? hy)
    rw [List.length_cons] at hk
    obtain ⟨z, z1, _, z2, z3⟩ := sum_step hB1 hB2 (k := k) (by omega) hs hx h1 h2 hxb
    obtain ⟨c, w, c1, c2, c3, c4⟩ := foldBands_acc hB1 hB2 h hr z1 z2 z3 (fun q hq => hb q (List.mem_cons_of_mem _ hq)) (by omega)
    refine ⟨c, w, c1, c2, ?_, ?_⟩
    all_goals
      rw [List.map_cons, List.sum_cons, List.getD_eq_getElem?_getD, hy, Option.getD_some, number_of hx, List.length_cons, ← add_assoc,
        show k + (ps.length + 1) = k + 1 + ps.length by omega]
    · exact c3
    · exact c4

/-- Accuracy of the mean over patches. -/
theorem perPatchMean_acc {B : ℝ} (hB1 : 1 ≤ B) (hB2 : B ≤ 2 ^ 900) {sel : PatchSim F → List F} {ps : List (PatchSim F)} {v : List F}
    (h : perPatchMean sel ps = .ok v) (hb : ∀ q ∈ ps, ∀ c ∈ sel q, ∃ x, val c = .fin x ∧ |x| ≤ B) (hn : ps.length ≤ 2 ^ 48) {b : ℕ} (hbl : b < v.length) :
    ∃ y, Is (v.getD b 0.0) y ∧ |y - mean (ps.map fun q => number ((sel q).getD b 0.0))| ≤ (ps.length + 3) * (B / 2 ^ 51) := by
  unfold perPatchMean at h
  obtain ⟨q, h1, h⟩ := bind_ok h
  obtain ⟨t, h2, h⟩ := bind_ok h
  cases h
  rw [List.length_map] at hbl
  have hl := foldBands_length h2
  rw [List.length_replicate] at hl
  obtain ⟨c, y, c1, c2, c3, c4⟩ := foldBands_acc hB1 hB2 h2 (b := b) (k := 0) (a := 0.0) (t := 0)
    (by rw [List.getElem?_replicate, if_pos (by omega)]) val_0 (by simp [sumErr]) (by simp) hb (by omega)
  rw [zero_add] at c3 c4
  rw [List.getD_eq_getElem?_getD, List.getElem?_map, c1]
  simp only [Option.map_some, Option.getD_some]
  have hn0 : 1 ≤ ps.length := by
    have := (List.getElem?_eq_some_iff.mp (idx_ok h1)).1
    omega
  have hB0 : 0 < B := by linarith
  unfold mean
  rw [List.length_map]
  rw [zero_add] at c3 c4
  generalize (ps.map fun q => number ((sel q).getD b 0.0)).sum = S at *
  have hnat := val_nat (F := F) (n := ps.length) (by omega)
  have hr1 : (1 : ℝ) ≤ ps.length := by exact_mod_cast hn0
  have hr2 : (ps.length : ℝ) ≤ 2 ^ 48 := by exact_mod_cast hn
  unfold sumErr at c3
  generalize (ps.length : ℝ) = n at *
  have hnp : 0 < n := by linarith
  have hd : |y / n - S / n| ≤ (n + 1) * (B / 2 ^ 51) := by
    rw [← sub_div, abs_div, abs_of_pos hnp, div_le_iff₀ hnp]; linarith
  have hS : |S / n| ≤ B := by
    rw [abs_div, abs_of_pos hnp, div_le_iff₀ hnp]; linarith
  have hsm : (n + 1) * (B / 2 ^ 51) ≤ B := by
    have : (n + 1) * (B / 2 ^ 51) = B * ((n + 1) / 2 ^ 51) := by ring
    rw [this]
    refine mul_le_of_le_one_right hB0.le ?_
    rw [div_le_one (by norm_num)]
    linarith
  have hy : |y / n| ≤ 2 * B := by
    have e : y / n = (y / n - S / n) + S / n := by ring
    rw [e]
    have := abs_add_le (y / n - S / n) (S / n)
    clear hB2
    linarith
  have hbig : 2 * B ≤ 2 ^ 1000 := by
    calc 2 * B ≤ 2 * 2 ^ 900 := by gcongr
      _ = 2 ^ 901 := by rw [← pow_succ']
      _ ≤ 2 ^ 1000 := two_pow_mono (by norm_num)
  obtain ⟨w, hw, hwe⟩ := rnd_err F hy (by linarith) hbig
  refine ⟨w, (Is.div c2 hnat hnp.ne').trans hw, ?_⟩
  have e : w - S / n = (w - y / n) + (y / n - S / n) := by ring
  rw [e]
  refine (abs_add_le _ _).trans ?_
  clear hB2 hbig
  calc |w - y / n| + |y / n - S / n| ≤ 2 * B / 2 ^ 51 + (n + 1) * (B / 2 ^ 51) := add_le_add hwe hd
    _ = (n + 3) * (B / 2 ^ 51) := by ring

/-- The similarity of a reported patch is the mean of its band similarities. -/
theorem FromMeasure.similarity_mean [Libm F] {p : Profile} {nb : Nat} {q : PatchSim F} (h : FromMeasure p nb q) (hnb : nb ≤ 32)
    (hv : ∀ a ∈ q.freqBandMeans, ∃ x, val a = .fin x ∧ |x| ≤ 2 ^ 18) :
    ∃ y, Is q.similarity y ∧ |y - mean (q.freqBandMeans.map number)| ≤ 1 / 2 ^ 20 := by
  have hlen := h.lengths.1
  obtain ⟨a, b, n, wa, wb, ha, hb, hm, _, _, h3⟩ := h.out
  obtain ⟨hs, h1, h2⟩ := measure_ok_inv hm
  rcases h3 with ⟨e1, e2⟩ | ⟨e1, e2⟩
  · rw [measurePatchSimilarity_eq p a b wa wb hs h1 h2] at hm
    cases hm
    have e3 : q.similarity = Flt.sum q.freqBandMeans / Flt.ofNat q.freqBandMeans.length := by
      rw [e2, hlen, e1, ha]; rfl
    rw [e3]
    exact mean_acc hv (by omega) (by omega)
  · refine ⟨0, by rw [e2]; exact val_0, ?_⟩
    rw [e1, List.map_replicate, number_of val_0]
    simp [mean]

end Visqol
