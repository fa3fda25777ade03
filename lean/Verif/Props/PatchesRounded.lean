import Verif.Props.WidebandScore

/-! # The share of one patch in the similarity, in floating point (C86) -/

set_option linter.unusedSectionVars false

namespace Visqol
open Ieee

variable {F : Type} [Flt F] [Ieee F] [Libm F] [RustFft F]

theorem sum_within {l m : List ℝ} {e : ℝ} (hl : l.length = m.length) (h : ∀ i < l.length, |l.getD i 0 - m.getD i 0| ≤ e) :
    |l.sum - m.sum| ≤ l.length * e := by
  rw [sum_getD, sum_getD, ← hl, ← Finset.sum_sub_distrib]
  refine (Finset.abs_sum_le_sum_abs _ _).trans ?_
  refine (Finset.sum_le_sum fun i hi => h i (Finset.mem_range.mp hi)).trans ?_
  rw [Finset.sum_const, Finset.card_range, nsmul_eq_mul]

theorem mean_within {l m : List ℝ} {e : ℝ} (hl : l.length = m.length) (h0 : 0 < l.length) (h : ∀ i < l.length, |l.getD i 0 - m.getD i 0| ≤ e) :
    |mean l - mean m| ≤ e := by
  have hp : (0 : ℝ) < l.length := by exact_mod_cast h0
  unfold mean
  rw [← hl, ← sub_div, abs_div, abs_of_pos hp, div_le_iff₀ hp, mul_comm]
  exact sum_within hl h

/-- The mean of bands of means of patches is the mean of patches of means of bands. -/
theorem mean_swap {α : Type} (f : α → List ℝ) {n : ℕ} {l : List α} (h : ∀ q ∈ l, (f q).length = n) :
    mean ((List.range n).map fun b => mean (l.map fun q => (f q).getD b 0)) = mean (l.map fun q => mean (f q)) := by
  have e1 : ((List.range n).map fun b => mean (l.map fun q => (f q).getD b 0)).sum = (l.map fun q => (f q).sum).sum / l.length := by
    rw [← sum_swap f n l h, Finset.sum_div, ← List.sum_toFinset]
    · have : (List.range n).toFinset = Finset.range n := by ext; simp
      rw [this]
      refine Finset.sum_congr rfl fun b _ => ?_
      rw [mean, List.length_map]
    · exact List.nodup_range
  have e2 : (l.map fun q => mean (f q)) = l.map fun q => (f q).sum / (n : ℝ) := List.map_congr_left fun q hq => by rw [mean, h q hq]
  rw [e2, mean, e1, mean, mean_map_div]
  simp only [List.length_map, List.length_range]
  ring

/-- C86, floating point: in a run with finite scores (C74) `vnsim` is, up to 0.000002 and `(n + 3) / 2^33`, the mean of the similarities of the `n`
reported patches. -/
theorem C86_mean_rounded {p : Profile} {m m' : Manager F} {ref deg : AudioSignal F} {res : SimilarityResult F}
    (h : m.computeResults p ref deg = .ok (m', res)) (hpc : m.patchCreator = .vad 30 ∨ m.patchCreator = .image 20) (hnb : m.numBands ≤ 32)
    (hlen : ref.data.length ≤ 2 ^ 40) (hf : FiniteScores res) :
    |number res.vnsim - mean (res.patchSims.map fun q => number q.similarity)| ≤ 2 / 1000000 + (res.patchSims.length + 3) / 2 ^ 33 := by
  obtain ⟨l1, _, _, _, hne, hl⟩ := C05_shapes h
  obtain ⟨a1, a2, a3⟩ := C06_rounded h hpc hnb hlen hf
  have h0 : number (0.0 : F) = 0 := number_of val_0
  have gd : ∀ (v : List F) (b : ℕ), (v.map number).getD b 0 = number (v.getD b 0.0) := by
    intro v b
    simp only [List.getD_eq_getElem?_getD, List.getElem?_map]
    cases v[b]? <;> simp [h0]
  have hb0 : 0 < m.numBands := by
    obtain ⟨al, lag, _, ⟨st⟩⟩ := computeResults_stages h
    have hv := st.vn
    unfold meanOpt at hv
    split at hv
    · cases hv
    · rename_i h1
      have := List.length_pos_iff.mpr h1
      omega
  have hp0 : 0 < res.patchSims.length := List.length_pos_iff.mpr hne
  have s1 : |mean (res.fvnsim.map number) - mean ((List.range m.numBands).map fun b =>
      mean (res.patchSims.map fun q => (q.freqBandMeans.map number).getD b 0))| ≤ (res.patchSims.length + 3) / 2 ^ 33 := by
    refine mean_within (by simp [l1]) (by simpa [l1] using hb0) fun b hb => ?_
    rw [List.length_map, l1] at hb
    have := a2 b hb
    rw [gd]
    simp only [List.getD_eq_getElem?_getD, List.getElem?_map, List.getElem?_range hb, Option.map_some, Option.getD_some] at this ⊢
    have e : (fun q : PatchSim F => ((Option.map number q.freqBandMeans[b]?).getD 0)) = fun q => number (q.freqBandMeans[b]?.getD 0.0) := by
      funext q
      cases q.freqBandMeans[b]? <;> simp [h0]
    rw [e]
    exact this
  rw [mean_swap (fun q : PatchSim F => q.freqBandMeans.map number) (fun q hq => by rw [List.length_map]; exact (hl q hq).1)] at s1
  have s2 : |mean (res.patchSims.map fun q => mean (q.freqBandMeans.map number)) - mean (res.patchSims.map fun q => number q.similarity)| ≤
      1 / 1000000 := by
    refine mean_within (by simp) (by simpa using hp0) fun i hi => ?_
    rw [List.length_map] at hi
    simp only [List.getD_eq_getElem?_getD, List.getElem?_map, List.getElem?_eq_getElem hi, Option.map_some, Option.getD_some]
    rw [abs_sub_comm]
    exact a3 _ (List.getElem_mem hi)
  have t := abs_add_le (number res.vnsim - mean (res.fvnsim.map number))
    (mean (res.fvnsim.map number) - mean (res.patchSims.map fun q => mean (q.freqBandMeans.map number)))
  rw [sub_add_sub_cancel] at t
  have t2 := abs_add_le (number res.vnsim - mean (res.patchSims.map fun q => mean (q.freqBandMeans.map number)))
    (mean (res.patchSims.map fun q => mean (q.freqBandMeans.map number)) - mean (res.patchSims.map fun q => number q.similarity))
  rw [sub_add_sub_cancel] at t2
  linarith

open Classical in
/-- The number of positions at which two lists of similarities differ. -/
noncomputable def changedAt (a b : List ℝ) : ℕ := ((Finset.range a.length).filter fun i => a[i]? ≠ b[i]?).card

theorem sum_changedAt {a b : List ℝ} {c : ℝ} (hl : a.length = b.length) (ha : ∀ x ∈ a, |x| ≤ c) (hb : ∀ x ∈ b, |x| ≤ c) :
    |a.sum - b.sum| ≤ 2 * c * changedAt a b := by
  classical
  rw [sum_getD, sum_getD, ← hl, ← Finset.sum_sub_distrib]
  refine (Finset.abs_sum_le_sum_abs _ _).trans ?_
  unfold changedAt
  rw [Finset.card_filter, Nat.cast_sum, Finset.mul_sum]
  refine Finset.sum_le_sum fun i hi => ?_
  have hi := Finset.mem_range.mp hi
  have hi' : i < b.length := by omega
  rw [List.getD_eq_getElem?_getD, List.getD_eq_getElem?_getD]
  by_cases h : a[i]? = b[i]?
  · rw [h, sub_self, abs_zero, if_neg (by simp)]; simp
  · rw [if_pos h, List.getElem?_eq_getElem hi, List.getElem?_eq_getElem hi', Option.getD_some, Option.getD_some]
    have h1 := abs_le.mp (ha _ (List.getElem_mem hi))
    have h2 := abs_le.mp (hb _ (List.getElem_mem hi'))
    rw [abs_le]; constructor <;> push_cast <;> linarith [h1.1, h1.2, h2.1, h2.2]

/-- C86, patches, in floating point: if two comparisons report `n` patches each, with similarities of at most `c` in size, and the similarities
differ in `k` of them, then the two `vnsim` differ by at most `2 c k / n` and the rounding errors of both. -/
theorem C86_patches_rounded {p₁ p₂ : Profile} {m₁ m₁' m₂ m₂' : Manager F} {ref₁ deg₁ ref₂ deg₂ : AudioSignal F} {r₁ r₂ : SimilarityResult F}
    (h₁ : m₁.computeResults p₁ ref₁ deg₁ = .ok (m₁', r₁)) (h₂ : m₂.computeResults p₂ ref₂ deg₂ = .ok (m₂', r₂))
    (hpc₁ : m₁.patchCreator = .vad 30 ∨ m₁.patchCreator = .image 20) (hpc₂ : m₂.patchCreator = .vad 30 ∨ m₂.patchCreator = .image 20)
    (hb₁ : m₁.numBands ≤ 32) (hb₂ : m₂.numBands ≤ 32) (hl₁ : ref₁.data.length ≤ 2 ^ 40) (hl₂ : ref₂.data.length ≤ 2 ^ 40)
    (hf₁ : FiniteScores r₁) (hf₂ : FiniteScores r₂) (hl : r₁.patchSims.length = r₂.patchSims.length) {c : ℝ}
    (hc₁ : ∀ q ∈ r₁.patchSims, |number q.similarity| ≤ c) (hc₂ : ∀ q ∈ r₂.patchSims, |number q.similarity| ≤ c) :
    |number r₁.vnsim - number r₂.vnsim| ≤ 2 * c * changedAt (r₁.patchSims.map fun q => number q.similarity)
      (r₂.patchSims.map fun q => number q.similarity) / r₁.patchSims.length + 4 / 1000000 + (r₁.patchSims.length + 3) / 2 ^ 32 := by
  have k1 := abs_le.mp (C86_mean_rounded h₁ hpc₁ hb₁ hl₁ hf₁)
  have k2 := abs_le.mp (C86_mean_rounded h₂ hpc₂ hb₂ hl₂ hf₂)
  have hp : (0 : ℝ) < r₁.patchSims.length := by
    obtain ⟨_, _, _, _, hne, _⟩ := C05_shapes h₁
    exact_mod_cast List.length_pos_iff.mpr hne
  have s := sum_changedAt (a := r₁.patchSims.map fun q => number q.similarity) (b := r₂.patchSims.map fun q => number q.similarity) (c := c)
    (by simpa using hl)
    (fun x hx => by obtain ⟨q, hq, rfl⟩ := List.mem_map.mp hx; exact hc₁ q hq)
    (fun x hx => by obtain ⟨q, hq, rfl⟩ := List.mem_map.mp hx; exact hc₂ q hq)
  rw [← hl] at k2
  have s2 : |mean (r₁.patchSims.map fun q => number q.similarity) - mean (r₂.patchSims.map fun q => number q.similarity)| ≤
      2 * c * changedAt (r₁.patchSims.map fun q => number q.similarity) (r₂.patchSims.map fun q => number q.similarity) / r₁.patchSims.length := by
    unfold mean
    rw [List.length_map, List.length_map, ← hl, ← sub_div, abs_div, abs_of_pos hp]
    exact div_le_div_of_nonneg_right s hp.le
  generalize 2 * c * changedAt (r₁.patchSims.map fun q => number q.similarity) (r₂.patchSims.map fun q => number q.similarity) / (r₁.patchSims.length : ℝ) = R at *
  obtain ⟨s3, s4⟩ := abs_le.mp s2
  obtain ⟨k3, k4⟩ := k1
  obtain ⟨k5, k6⟩ := k2
  generalize (r₁.patchSims.length : ℝ) = n at *
  rw [abs_le]
  constructor <;> norm_num at * <;> linarith

/-- The hypotheses of both: 2.5 s of silence against a step, in double precision. -/
example (p : Profile) : ∃ m' res, (⟨32, 60, .image 20, .speech true, FilterBank.new 32 50.0⟩ : Manager B64).computeResults p
    noSound (onset B64 1000 40000) = .ok (m', res) ∧ ∃ c : ℝ, (∀ q ∈ res.patchSims, |number q.similarity| ≤ c) ∧
    |number res.vnsim - mean (res.patchSims.map fun q => number q.similarity)| ≤ 2 / 1000000 + (res.patchSims.length + 3) / 2 ^ 33 ∧
    |number res.vnsim - number res.vnsim| ≤ 2 * c * changedAt (res.patchSims.map fun q => number q.similarity)
      (res.patchSims.map fun q => number q.similarity) / res.patchSims.length + 4 / 1000000 + (res.patchSims.length + 3) / 2 ^ 32 := by
  obtain ⟨m', res, h1, h2, _⟩ := silent_speech_run p true
  have hl : noSound.data.length ≤ 2 ^ 40 := by rw [noSound_length]; norm_num
  have hc : ∀ q ∈ res.patchSims, |number q.similarity| ≤ (res.patchSims.map fun q => |number q.similarity|).sum := fun q hq =>
    List.single_le_sum (fun x hx => by obtain ⟨q, _, rfl⟩ := List.mem_map.mp hx; exact abs_nonneg _) _ (List.mem_map_of_mem hq)
  exact ⟨m', res, h1, _, hc, C86_mean_rounded h1 (.inr rfl) (le_refl 32) hl h2,
    C86_patches_rounded h1 h1 (.inr rfl) (.inr rfl) (le_refl 32) (le_refl 32) hl hl h2 h2 rfl hc hc⟩

end Visqol
