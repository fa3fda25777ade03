import Verif.Props.Polarity
import Verif.Spec.Finite

/-! # C31 in floating point: an exact gain on the reference does not change the selected patches -/

set_option linter.unusedSectionVars false

namespace Visqol

open Ieee

variable {F : Type} [Flt F] [Ieee F] [Libm F]

/-- The 16-bit value of a normalised sample depends on its value only. -/
theorem toPcm_congr {a b : F} {y : ℝ} (ha : Is a y) (hb : Is b y) (h : |y| ≤ 2 ^ 950) : toPcm a = toPcm b := by
  have hi : Is (Flt.ofInt 32768 : F) 32768 := by
    have h1 := Ieee.rnd_dyadic (F := F) 32768 0 (by norm_num) (by norm_num) (by norm_num)
    have h2 := Ieee.val_ofInt (F := F) 32768
    rw [show (((32768 : ℤ) : ℝ)) = (32768 : ℤ) * 2 ^ (0 : ℤ) by norm_num, h1] at h2
    unfold Is
    rw [h2]
    norm_num
  have hs : |y * 32768| ≤ 2 ^ 1000 := by
    rw [abs_mul, show |(32768 : ℝ)| = 2 ^ 15 by norm_num]
    refine (mul_le_mul_of_nonneg_right h (by positivity)).trans ?_
    rw [← pow_add]
    exact two_pow_mono (by norm_num)
  obtain ⟨z, hz, _⟩ := Ieee.rnd_acc (F := F) _ hs
  have e : Flt.toI16 (a * Flt.ofInt 32768) = Flt.toI16 (b * Flt.ofInt 32768) := by
    rw [Libm.toI16_val _ z ((Is.mul ha hi).trans hz), Libm.toI16_val _ z ((Is.mul hb hi).trans hz)]
  unfold toPcm
  dsimp only
  rw [e]

theorem sliceM_toPcm {l l' : List F} (h : l.map toPcm = l'.map toPcm) (i j : Nat) :
    (sliceM l i j).map (List.map toPcm) = (sliceM l' i j).map (List.map toPcm) := by
  have hl : l.length = l'.length := by simpa using congrArg List.length h
  unfold sliceM
  rw [hl]
  split
  · simp only [Except.map]
    simp only [List.map_take, List.map_drop, h]
  · rfl

theorem voiceActivity_congr {l l' : List F} (h : l.map toPcm = l'.map toPcm) (i t f : Nat) :
    voiceActivity l i t f = voiceActivity l' i t f := by
  have := sliceM_toPcm h i (i + t)
  unfold voiceActivity
  cases h1 : sliceM l i (i + t) <;> cases h2 : sliceM l' i (i + t) <;> rw [h1, h2] at this <;> simp_all [Except.map, bind, Except.bind]

/-- C31 in floating point: where the samples of one reference are exactly `g` times those of another (as with a power of two, away from
overflow and underflow), the same wideband patches are selected.  Asked for is a positive peak that is not extremely small compared with
the negative samples. -/
theorem C31_rounded (p : Profile) (n nc : Nat) (ref ref' : AudioSignal F) (w : AnalysisWindow F) {g M : ℝ} (hg : 0 < g)
    (hs : List.Forall₂ (fun a b => ∃ x, val a = .fin x ∧ val b = .fin (g * x)) ref.data ref'.data)
    (hM : 0 < M) (hpeak : ∃ a ∈ ref.data, val a = .fin M) (hsize : ∀ a ∈ ref.data, |number a| ≤ 2 ^ 900 * M) :
    (PatchCreator.vad n).indices p nc ref' w = (PatchCreator.vad n).indices p nc ref w := by
  show vadPatchIndices p n nc _ w = vadPatchIndices p n nc ref w
  have hf : ∀ a ∈ ref.data, ∃ x, Is a x := by
    intro a ha
    obtain ⟨i, hi, rfl⟩ := List.getElem_of_mem ha
    obtain ⟨x, hx, _⟩ := hs.get hi (hs.length_eq ▸ hi)
    exact ⟨x, hx⟩
  have hf' : ∀ b ∈ ref'.data, ∃ a ∈ ref.data, ∃ x, Is a x ∧ Is b (g * x) := by
    intro b hb
    obtain ⟨i, hi, rfl⟩ := List.getElem_of_mem hb
    obtain ⟨x, hx, hx'⟩ := hs.get (hs.length_eq.symm ▸ hi) hi
    exact ⟨_, List.getElem_mem _, x, hx, hx'⟩
  have hb : ∀ a ∈ ref.data, ∃ b ∈ ref'.data, ∀ x, Is a x → Is b (g * x) := by
    intro a ha
    obtain ⟨i, hi, rfl⟩ := List.getElem_of_mem ha
    obtain ⟨x, hx, hx'⟩ := hs.get hi (hs.length_eq ▸ hi)
    refine ⟨_, List.getElem_mem (hs.length_eq ▸ hi), fun y hy => ?_⟩
    have : x = y := by
      have := hx.symm.trans hy
      exact Val.fin.inj this
    rw [← this]
    exact hx'
  obtain ⟨a0, ha0, hv0⟩ := hpeak
  have hne : ref.data ≠ [] := List.ne_nil_of_mem ha0
  have hne' : ref'.data ≠ [] := by
    obtain ⟨b, hb, _⟩ := hb a0 ha0
    exact List.ne_nil_of_mem hb
  obtain ⟨m, K, e1, hmem, hK, hmax⟩ := extremum_max_ieee hne hf
  obtain ⟨m', K', e2, hmem', hK', hmax'⟩ := extremum_max_ieee hne' (fun b hb => by obtain ⟨_, _, x, _, h⟩ := hf' b hb; exact ⟨_, h⟩)
  have hMK : M ≤ K := hmax a0 ha0 M hv0
  have hK0 : 0 < K := hM.trans_le hMK
  have hKK : K' = g * K := by
    apply le_antisymm
    · obtain ⟨a, ha, x, hx, hx'⟩ := hf' m' hmem'
      have : K' = g * x := Val.fin.inj (hK'.symm.trans hx')
      rw [this]
      exact mul_le_mul_of_nonneg_left (hmax a ha x hx) hg.le
    · obtain ⟨b, hb', h⟩ := hb m hmem
      exact hmax' b hb' _ (h K hK)
  have hpcm : (ref'.data.map (· / m')).map toPcm = (ref.data.map (· / m)).map toPcm := by
    rw [List.map_map, List.map_map]
    apply List.ext_getElem
    · simp [hs.length_eq]
    · intro i hi hi'
      simp only [List.length_map] at hi hi'
      simp only [List.getElem_map, Function.comp]
      obtain ⟨x, hx, hx'⟩ := hs.get hi' hi
      have hx : Is ref.data[i] x := hx
      have hx' : Is ref'.data[i] (g * x) := hx'
      have hq : |x / K| ≤ 2 ^ 900 := by
        have h1 := hsize _ (List.getElem_mem hi')
        have h2 : number ref.data[i] = x := by unfold number; rw [hx]
        rw [h2] at h1
        rw [abs_div, abs_of_pos hK0, div_le_iff₀ hK0]
        exact h1.trans (mul_le_mul_of_nonneg_left hMK (by positivity))
      obtain ⟨z, hz, hze⟩ := rnd_err F hq (one_le_pow₀ (by norm_num)) (two_pow_mono (by norm_num))
      have d1 : Is (ref.data[i] / m) z := (Ieee.div_fin _ _ _ _ hx hK hK0.ne').trans hz
      have d2 : Is (ref'.data[i] / m') z := by
        have := Ieee.div_fin _ _ _ _ hx' hK' (by rw [hKK]; exact (mul_pos hg hK0).ne')
        rw [hKK, mul_div_mul_left x K hg.ne'] at this
        exact this.trans hz
      refine toPcm_congr d2 d1 ?_
      have h3 := abs_add_le (z - x / K) (x / K)
      rw [sub_add_cancel] at h3
      have h4 : (2 : ℝ) ^ 900 / 2 ^ 51 ≤ 2 ^ 900 := div_le_self (by positivity) (one_le_pow₀ (by norm_num))
      have h5 : (2 : ℝ) * 2 ^ 900 = 2 ^ 901 := (pow_succ' _ _).symm
      have h6 : (2 : ℝ) ^ 901 ≤ 2 ^ 950 := two_pow_mono (by norm_num)
      generalize (2 : ℝ) ^ 950 = A at *
      generalize (2 : ℝ) ^ 901 = A' at *
      generalize (2 : ℝ) ^ 900 = B at *
      linarith only [h3, h4, h5, h6, hze, hq]
  have hnorm : ∃ l l' : List F, normalizeSignal ref.data = .ok l ∧ normalizeSignal ref'.data = .ok l' ∧ l'.map toPcm = l.map toPcm := by
    refine ⟨_, _, ?_, ?_, hpcm⟩
    · unfold normalizeSignal; rw [e1]; rfl
    · unfold normalizeSignal; rw [e2]; rfl
  obtain ⟨l, l', n1, n2, n3⟩ := hnorm
  unfold vadPatchIndices
  dsimp only
  rw [n1, n2]
  simp only [ok_bind, voiceActivity_congr n3]

/-- A reference and its double. -/
example : ∃ ref ref' : List F, ref.length = 3 ∧
    List.Forall₂ (fun a b => ∃ x, val a = .fin x ∧ val b = .fin (2 * x)) ref ref' ∧ (∃ a ∈ ref, val a = .fin 1) ∧
    ∀ a ∈ ref, |number a| ≤ 2 ^ 900 * 1 := by
  refine ⟨[0.0, 1.0, 0.0], [0.0, 2.0, 0.0], rfl, ?_, ⟨1.0, by simp, val_1⟩, ?_⟩
  · refine .cons ⟨0, val_0, by rw [mul_zero]; exact val_0⟩ (.cons ⟨1, val_1, by rw [mul_one]; exact val_2⟩
      (.cons ⟨0, val_0, by rw [mul_zero]; exact val_0⟩ .nil))
  · intro a ha
    have h0 : number (0.0 : F) = 0 := by unfold number; rw [val_0]
    have h1 : number (1.0 : F) = 1 := by unfold number; rw [val_1]
    have h2 : (1 : ℝ) ≤ 2 ^ 900 := one_le_pow₀ (by norm_num)
    simp only [List.mem_cons, List.not_mem_nil, or_false] at ha
    rw [mul_one]
    rcases ha with rfl | rfl | rfl
    · rw [h0, abs_zero]; exact zero_le_one.trans h2
    · rw [h1, abs_one]; exact h2
    · rw [h0, abs_zero]; exact zero_le_one.trans h2

end Visqol
