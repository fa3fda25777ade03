import Verif.Lemmas.IeeeLevel
import Verif.Spec.Finite
import Verif.Props.Level
import Verif.Num.Binary64Libm

/-! # Level matching in floating point: C12, C13 -/

set_option linter.unusedSectionVars false

namespace Visqol
open Ieee

theorem squares_range : ∀ l : List ℝ, (l.map fun x => x ^ 2).sum = ∑ n ∈ Finset.range l.length, ‖((l.getD n 0 : ℝ) : ℂ)‖ ^ 2
  | [] => by simp
  | a :: l => by
    rw [List.map_cons, List.sum_cons, List.length_cons, Finset.sum_range_succ', squares_range l]
    simp [add_comm]

theorem rms_nrm (l : List ℝ) : rms l = nrm l.length (fun n => ((l.getD n 0 : ℝ) : ℂ)) / Real.sqrt l.length := by
  unfold rms nrm
  rw [← Real.sqrt_div' _ (Nat.cast_nonneg _), squares_range]

/-- Signals that are close sample by sample have close root mean squares. -/
theorem rms_near {a b : List ℝ} (hl : a.length = b.length) (h0 : b ≠ []) {c d : ℝ} (hc : 0 ≤ c) (hd : 0 ≤ d)
    (h : ∀ i < b.length, |a.getD i 0 - b.getD i 0| ≤ c * |b.getD i 0| + d) : |rms a - rms b| ≤ c * rms b + d := by
  have hn : 0 < Real.sqrt b.length := Real.sqrt_pos.mpr (by exact_mod_cast List.length_pos_iff.mpr h0)
  rw [rms_nrm, rms_nrm, hl, ← sub_div, abs_div, abs_of_pos hn, div_le_iff₀ hn]
  have key : nrm b.length (fun n => ((a.getD n 0 : ℝ) : ℂ) - ((b.getD n 0 : ℝ) : ℂ)) ≤
      c * nrm b.length (fun n => ((b.getD n 0 : ℝ) : ℂ)) + d * Real.sqrt b.length := by
    refine nrm_le_mul_add hc hd fun n hn => ?_
    rw [← Complex.ofReal_sub, Complex.norm_real, Complex.norm_real]
    exact h n hn
  have e : (c * (nrm b.length (fun n => ((b.getD n 0 : ℝ) : ℂ)) / Real.sqrt b.length) + d) * Real.sqrt b.length =
      c * nrm b.length (fun n => ((b.getD n 0 : ℝ) : ℂ)) + d * Real.sqrt b.length := by
    field_simp
  rw [e]
  refine le_trans ?_ key
  have h1 := nrm_le_add_sub b.length (fun n => ((a.getD n 0 : ℝ) : ℂ)) (fun n => ((b.getD n 0 : ℝ) : ℂ))
  have h2 := nrm_le_add_sub b.length (fun n => ((b.getD n 0 : ℝ) : ℂ)) (fun n => ((a.getD n 0 : ℝ) : ℂ))
  have h3 : nrm b.length (fun n => ((b.getD n 0 : ℝ) : ℂ) - ((a.getD n 0 : ℝ) : ℂ)) =
      nrm b.length (fun n => ((a.getD n 0 : ℝ) : ℂ) - ((b.getD n 0 : ℝ) : ℂ)) := by
    unfold nrm
    congr 1
    refine Finset.sum_congr rfl fun n _ => ?_
    rw [norm_sub_rev]
  rw [abs_le]
  constructor <;> linarith

variable {F : Type} [Flt F] [Ieee F] [Libm F]

theorem ordinary_pw {s : AudioSignal F} (h : OrdinarySamples s) : ∀ a ∈ s.data, Pw 1 a := by
  intro a ha
  obtain ⟨x, hx, hb⟩ := h a ha
  exact ⟨x, hx, by rw [pow_one]; exact hb⟩

theorem sound_loud {s : AudioSignal F} (h : SoundFrom 0 s) : ∃ a ∈ s.data, ∃ v, Is a v ∧ 1 / 2 ^ 40 ≤ |v| := by
  obtain ⟨a, ha, x, hx, hb⟩ := h
  exact ⟨a, by simpa using ha, x, hx, hb⟩

theorem levelTol_le {nr nd : ℕ} (hr : nr ≤ 2 ^ 31) (hd : nd ≤ 2 ^ 31) : 0 ≤ levelTol nr nd ∧ levelTol nr nd ≤ 1 / 2 ^ 14 := by
  have : ((nr + nd : ℕ) : ℝ) ≤ 2 ^ 32 := by
    have : nr + nd ≤ 2 ^ 32 := by omega
    exact_mod_cast this
  unfold levelTol
  refine ⟨by positivity, ?_⟩
  generalize ((nr + nd : ℕ) : ℝ) = n at *
  norm_num at *
  linarith

/-- The samples after level matching. -/
theorem matched_samples {ref deg : AudioSignal F} (hr : OrdinarySamples ref) (hd : OrdinarySamples deg) (hrs : SoundFrom 0 ref)
    (hds : SoundFrom 0 deg) (hrl : ref.data.length ≤ 2 ^ 31) (hdl : deg.data.length ≤ 2 ^ 31) :
    (∀ a ∈ (scaleToMatchSpl ref deg).data, ∃ z, val a = .fin z) ∧
    ∃ g > 0, g ≤ 2 ^ 58 ∧
      |g * rms (deg.data.map number) - rms (ref.data.map number)| ≤ levelTol ref.data.length deg.data.length * rms (ref.data.map number) ∧
      ∀ i, |((scaleToMatchSpl ref deg).data.map number).getD i 0 - g * (deg.data.map number).getD i 0| ≤
        g * |(deg.data.map number).getD i 0| / 2 ^ 52 + 1 / 2 ^ 1000 := by
  have hr' := ordinary_pw hr
  have hd' := ordinary_pw hd
  have hrs' := sound_loud hrs
  have hds' := sound_loud hds
  obtain ⟨g, hg, hge⟩ := factor_acc hr' hd' hrl hdl hrs' hds'
  obtain ⟨r1, r2⟩ := rms_size hr' hrl hrs'
  obtain ⟨d1, d2⟩ := rms_size hd' hdl hds'
  obtain ⟨t0, t1⟩ := levelTol_le hrl hdl
  have hrp : 0 < rms (ref.data.map number) := lt_of_lt_of_le (by positivity) r1
  have hdp : 0 < rms (deg.data.map number) := lt_of_lt_of_le (by positivity) d1
  have hq2 : rms (ref.data.map number) / rms (deg.data.map number) ≤ 2 ^ 57 := by
    rw [div_le_iff₀ hdp]
    refine r2.trans ?_
    calc (2 : ℝ) = 2 ^ 57 * (1 / 2 ^ 56) := by norm_num
      _ ≤ 2 ^ 57 * rms (deg.data.map number) := mul_le_mul_of_nonneg_left d1 (by positivity)
  have hqp : 0 < rms (ref.data.map number) / rms (deg.data.map number) := div_pos hrp hdp
  have hg0 : 0 < g ∧ g ≤ 2 ^ 58 := by
    have h1 := (abs_le.mp hge).1
    have h2 := (abs_le.mp hge).2
    generalize rms (ref.data.map number) / rms (deg.data.map number) = q at *
    have := mul_le_mul_of_nonneg_right t1 hqp.le
    norm_num at *
    constructor <;> linarith
  have hsample : ∀ a ∈ deg.data, ∃ z, val (a * Flt.powf 10.0 ((soundPressureLevel ref.data - soundPressureLevel deg.data) / 20.0) : F) = .fin z ∧
      |z - g * number a| ≤ g * |number a| / 2 ^ 52 + 1 / 2 ^ 1000 := by
    intro a ha
    obtain ⟨x, hx, hb⟩ := hd a ha
    have hbig : |x * g| ≤ 2 ^ 1000 := by
      rw [abs_mul, abs_of_pos hg0.1]
      calc |x| * g ≤ 2 * 2 ^ 58 := mul_le_mul hb hg0.2 hg0.1.le (by norm_num)
        _ = 2 ^ 59 := by norm_num
        _ ≤ 2 ^ 1000 := two_pow_mono (by norm_num)
    obtain ⟨z, hz, hze⟩ := rnd_acc (F := F) (x * g) hbig
    refine ⟨z, (Is.mul (show Is a x from hx) hg).trans hz, ?_⟩
    rw [number_of hx]
    rw [abs_mul, abs_of_pos hg0.1, mul_comm x g, mul_comm |x| g] at hze
    exact hze
  refine ⟨?_, g, hg0.1, hg0.2, ?_, ?_⟩
  · intro a ha
    obtain ⟨b, hb, rfl⟩ := List.mem_map.mp ha
    obtain ⟨z, hz, _⟩ := hsample b hb
    exact ⟨z, hz⟩
  · have e : g * rms (deg.data.map number) - rms (ref.data.map number) =
        (g - rms (ref.data.map number) / rms (deg.data.map number)) * rms (deg.data.map number) := by
      field_simp
    rw [e, abs_mul, abs_of_pos hdp]
    have := mul_le_mul_of_nonneg_right hge hdp.le
    rw [mul_assoc, div_mul_cancel₀ _ hdp.ne'] at this
    exact this
  · intro i
    unfold scaleToMatchSpl
    simp only [List.getD_eq_getElem?_getD, List.getElem?_map]
    cases hi : deg.data[i]? with
    | none => simp
    | some a =>
      obtain ⟨z, hz, hze⟩ := hsample a (List.mem_of_getElem? hi)
      simp only [Option.map_some, Option.getD_some]
      rw [number_of hz]
      exact hze

/-- C13 in floating point: level matching of ordinary signals that are not silent multiplies every sample of the degraded signal, up to
one rounding, by one positive number, which makes the root mean squares of the two signals equal up to a relative error of
`2⁻³⁴ + (number of samples) / 2⁴⁸`. -/
theorem C13_rounded {ref deg : AudioSignal F} (hr : OrdinarySamples ref) (hd : OrdinarySamples deg) (hrs : SoundFrom 0 ref)
    (hds : SoundFrom 0 deg) (hrl : ref.data.length ≤ 2 ^ 31) (hdl : deg.data.length ≤ 2 ^ 31) :
    (∀ a ∈ (scaleToMatchSpl ref deg).data, ∃ z, val a = .fin z) ∧
    (∃ g > 0, ∀ i, |((scaleToMatchSpl ref deg).data.map number).getD i 0 - g * (deg.data.map number).getD i 0| ≤
      g * |(deg.data.map number).getD i 0| / 2 ^ 52 + 1 / 2 ^ 1000) ∧
    |rms ((scaleToMatchSpl ref deg).data.map number) - rms (ref.data.map number)| ≤
      ((ref.data.length + deg.data.length : ℕ) / 2 ^ 48 + 1 / 2 ^ 34) * rms (ref.data.map number) := by
  obtain ⟨h1, g, hg, _, h2, h3⟩ := matched_samples hr hd hrs hds hrl hdl
  refine ⟨h1, ⟨g, hg, h3⟩, ?_⟩
  have hds' := sound_loud hds
  obtain ⟨r1, r2⟩ := rms_size (ordinary_pw hr) hrl (sound_loud hrs)
  obtain ⟨t0, t1⟩ := levelTol_le hrl hdl
  have hne : deg.data ≠ [] := List.ne_nil_of_mem hds'.choose_spec.1
  have hnear := rms_near (a := (scaleToMatchSpl ref deg).data.map number) (b := (deg.data.map number).map (g * ·)) (c := 1 / 2 ^ 52)
    (d := 1 / 2 ^ 1000) (by simp [scaleToMatchSpl]) (by simpa using hne) (by positivity) (by positivity) (by
      intro i hi
      have e : ((deg.data.map number).map (g * ·)).getD i 0 = g * (deg.data.map number).getD i 0 := by
        simp only [List.length_map] at hi
        simp [List.getD_eq_getElem?_getD, hi]
      rw [e, abs_mul, abs_of_pos hg]
      refine (h3 i).trans (le_of_eq ?_)
      generalize (1 : ℝ) / 2 ^ 1000 = t
      ring)
  rw [rms_gain, abs_of_pos hg] at hnear
  have htiny : (1 : ℝ) / 2 ^ 1000 ≤ 1 / 2 ^ 100 := tiny_le_pow (by norm_num)
  have e : ((ref.data.length + deg.data.length : ℕ) / 2 ^ 48 + 1 / 2 ^ 34 : ℝ) = levelTol ref.data.length deg.data.length + 1 / 2 ^ 35 := by
    unfold levelTol; ring
  rw [e]
  generalize levelTol ref.data.length deg.data.length = t at *
  generalize (1 : ℝ) / 2 ^ 1000 = y at *
  generalize g * rms (deg.data.map number) = m at *
  generalize rms (ref.data.map number) = r at *
  have a1 := (abs_le.mp hnear).1
  have a2 := (abs_le.mp hnear).2
  have b1 := (abs_le.mp h2).1
  have b2 := (abs_le.mp h2).2
  have htr : t * r ≤ 1 / 2 ^ 14 * r := mul_le_mul_of_nonneg_right t1 (le_trans (by positivity) r1)
  rw [add_mul, abs_le]
  generalize t * r = w at *
  norm_num at *
  constructor <;> linarith

/-- The signal multiplied by a number, in floating point. -/
def AudioSignal.gainF (c : F) (s : AudioSignal F) : AudioSignal F := ⟨s.data.map (· * c), s.sampleRate⟩

theorem short_ordinary (n : ℕ) : OrdinarySamples (⟨[0.0, 1.0], n⟩ : AudioSignal F) ∧ SoundFrom 0 (⟨[0.0, 1.0], n⟩ : AudioSignal F) := by
  refine ⟨fun a ha => ?_, 1.0, by simp, 1, val_1, by norm_num⟩
  rcases List.mem_cons.mp ha with rfl | ha
  · exact ⟨0, val_0, by norm_num⟩
  · rw [List.mem_singleton.mp ha]
    exact ⟨1, val_1, by norm_num⟩

theorem short_doubled (n : ℕ) : OrdinarySamples (AudioSignal.gainF (2.0 : F) ⟨[0.0, 1.0], n⟩) ∧
    SoundFrom 0 (AudioSignal.gainF (2.0 : F) ⟨[0.0, 1.0], n⟩) := by
  have h0 : val (0.0 * 2.0 : F) = .fin 0 := by rw [Is.mul val_0 val_2, zero_mul, rnd_zero]
  have h2 : val (1.0 * 2.0 : F) = .fin 2 := by
    rw [Is.mul val_1 val_2, one_mul]
    exact_mod_cast rnd_nat F (n := 2) (by norm_num)
  refine ⟨fun a ha => ?_, 1.0 * 2.0, by simp [AudioSignal.gainF], 2, h2, by norm_num⟩
  rcases List.mem_cons.mp ha with rfl | ha
  · exact ⟨0, h0, by norm_num⟩
  · rw [List.mem_singleton.mp ha]
    exact ⟨2, h2, by norm_num⟩

/-- C12 in floating point: multiplying the degraded signal by a positive number changes the samples that are compared with the
reference's only by a relative error of `2⁻³³ + (number of samples) / 2⁴⁶`. -/
theorem C12_rounded {ref deg : AudioSignal F} {c : F} {k : ℝ} (hc : val c = .fin k) (hk : 0 < k) (hku : k ≤ 2 ^ 60)
    (hr : OrdinarySamples ref) (hd : OrdinarySamples deg) (hd2 : OrdinarySamples (deg.gainF c)) (hrs : SoundFrom 0 ref)
    (hds : SoundFrom 0 deg) (hds2 : SoundFrom 0 (deg.gainF c)) (hrl : ref.data.length ≤ 2 ^ 31) (hdl : deg.data.length ≤ 2 ^ 31) (i : ℕ) :
    |((scaleToMatchSpl ref (deg.gainF c)).data.map number).getD i 0 - ((scaleToMatchSpl ref deg).data.map number).getD i 0| ≤
      ((ref.data.length + deg.data.length : ℕ) / 2 ^ 46 + 1 / 2 ^ 33) * |((scaleToMatchSpl ref deg).data.map number).getD i 0| +
        1 / 2 ^ 900 := by
  have hl2 : (deg.gainF c).data.length = deg.data.length := by simp [AudioSignal.gainF]
  obtain ⟨_, g, hg, hgu, h2, h3⟩ := matched_samples hr hd hrs hds hrl hdl
  obtain ⟨_, g', hg', hgu', h2', h3'⟩ := matched_samples hr hd2 hrs hds2 hrl (by rw [hl2]; exact hdl)
  rw [hl2] at h2'
  obtain ⟨t0, t1⟩ := levelTol_le hrl hdl
  have hlow : 1 / 2 ^ 35 ≤ levelTol ref.data.length deg.data.length := by
    unfold levelTol
    have : (0 : ℝ) ≤ (ref.data.length + deg.data.length : ℕ) / 2 ^ 48 := by positivity
    linarith
  have hds' := sound_loud hds
  have hne : deg.data ≠ [] := List.ne_nil_of_mem hds'.choose_spec.1
  obtain ⟨R1, _⟩ := rms_size (ordinary_pw hd) hdl hds'
  obtain ⟨Y1, _⟩ := rms_size (ordinary_pw hd2) (by rw [hl2]; exact hdl) (sound_loud hds2)
  -- the multiplied samples
  have hy : ∀ j, |((deg.gainF c).data.map number).getD j 0 - k * (deg.data.map number).getD j 0| ≤
      k * |(deg.data.map number).getD j 0| / 2 ^ 52 + 1 / 2 ^ 1000 := by
    intro j
    unfold AudioSignal.gainF
    simp only [List.getD_eq_getElem?_getD, List.getElem?_map]
    cases hj : deg.data[j]? with
    | none => simp
    | some a =>
      simp only [Option.map_some, Option.getD_some]
      obtain ⟨x, hx, hb⟩ := hd a (List.mem_of_getElem? hj)
      have hbig : |x * k| ≤ 2 ^ 1000 := by
        rw [abs_mul, abs_of_pos hk]
        calc |x| * k ≤ 2 * 2 ^ 60 := mul_le_mul hb hku hk.le (by norm_num)
          _ = 2 ^ 61 := by norm_num
          _ ≤ 2 ^ 1000 := two_pow_mono (by norm_num)
      obtain ⟨z, hz, hze⟩ := rnd_acc (F := F) (x * k) hbig
      rw [number_of hx, number_of ((Is.mul (show Is a x from hx) (show Is c k from hc)).trans hz)]
      rw [abs_mul, abs_of_pos hk, mul_comm x k, mul_comm |x| k] at hze
      exact hze
  have hnear := rms_near (a := (deg.gainF c).data.map number) (b := (deg.data.map number).map (k * ·)) (c := 1 / 2 ^ 52)
    (d := 1 / 2 ^ 1000) (by simp [AudioSignal.gainF]) (by simpa using hne) (by positivity) (by positivity) (by
      intro i hi
      have e : ((deg.data.map number).map (k * ·)).getD i 0 = k * (deg.data.map number).getD i 0 := by
        simp only [List.length_map] at hi
        simp [List.getD_eq_getElem?_getD, hi]
      rw [e, abs_mul, abs_of_pos hk]
      refine (hy i).trans (le_of_eq ?_)
      generalize (1 : ℝ) / 2 ^ 1000 = t
      ring)
  rw [rms_gain, abs_of_pos hk] at hnear
  have hRp : 0 < rms (deg.data.map number) := lt_of_lt_of_le (by positivity) R1
  have e : ((ref.data.length + deg.data.length : ℕ) / 2 ^ 46 + 1 / 2 ^ 33 : ℝ) = 4 * levelTol ref.data.length deg.data.length := by
    unfold levelTol; ring
  rw [e]
  have htiny : (1 : ℝ) / 2 ^ 1000 ≤ 1 / 2 ^ 200 := tiny_le_pow (by norm_num)
  have htiny0 : (0 : ℝ) ≤ 1 / 2 ^ 1000 := by positivity
  have h900 : (2 : ℝ) ^ 70 * (1 / 2 ^ 1000) ≤ 1 / 2 ^ 900 := by
    rw [mul_one_div, div_le_div_iff₀ (by positivity) (by positivity), ← pow_add, one_mul]
    exact two_pow_mono (by norm_num)
  have h3i := h3 i
  have h3i' := h3' i
  have hyi := hy i
  have hrn : 0 ≤ rms (ref.data.map number) := rms_nonneg _
  generalize ((scaleToMatchSpl ref (deg.gainF c)).data.map number).getD i 0 = z' at *
  generalize ((scaleToMatchSpl ref deg).data.map number).getD i 0 = z at *
  generalize ((deg.gainF c).data.map number).getD i 0 = y at *
  generalize (deg.data.map number).getD i 0 = x at *
  generalize levelTol ref.data.length deg.data.length = τ at *
  generalize rms (deg.data.map number) = R at *
  generalize rms ((deg.gainF c).data.map number) = Y at *
  generalize rms (ref.data.map number) = r at *
  clear hy h3 h3'
  generalize (1 : ℝ) / 2 ^ 1000 = t at *
  generalize (1 : ℝ) / 2 ^ 900 = v at *
  clear hr hd hd2 hrs hds hds2 hrl hdl hds' hne hl2 e hku hc
  -- the two factors
  have hkR : |k * R - Y| ≤ Y / 2 ^ 51 := by
    have a1 := (abs_le.mp hnear).1
    have a2 := (abs_le.mp hnear).2
    rw [abs_le]
    norm_num at *
    constructor <;> linarith
  have hfac : |g' * k - g| ≤ (3 * τ + 1 / 2 ^ 50) * g := by
    have hC : |g' * (k * R) - g' * Y| ≤ g' * Y / 2 ^ 51 := by
      rw [← mul_sub, abs_mul, abs_of_pos hg', mul_div_assoc]
      exact mul_le_mul_of_nonneg_left hkR hg'.le
    have hBC : |g' * (k * R) - g * R| ≤ (3 * τ + 1 / 2 ^ 50) * (g * R) := by
      have hτ : 0 ≤ τ * (g * R - r + τ * r) := mul_nonneg t0 (by have := (abs_le.mp h2).1; linarith)
      have hττ : τ * (τ * r) ≤ 1 / 2 ^ 14 * (τ * r) := mul_le_mul_of_nonneg_right t1 (by positivity)
      have hτr : τ * r ≤ 1 / 2 ^ 14 * r := mul_le_mul_of_nonneg_right t1 hrn
      have hτr0 : 0 ≤ τ * r := by positivity
      have a1 := (abs_le.mp hC).1
      have a2 := (abs_le.mp hC).2
      have b1 := (abs_le.mp h2).1
      have b2 := (abs_le.mp h2).2
      have c1 := (abs_le.mp h2').1
      have c2 := (abs_le.mp h2').2
      have e1 : τ * (g * R - r + τ * r) = τ * (g * R) - τ * r + τ * (τ * r) := by ring
      rw [e1] at hτ
      have e2 : (3 * τ + 1 / 2 ^ 50) * (g * R) = 3 * (τ * (g * R)) + 1 / 2 ^ 50 * (g * R) := by ring
      rw [e2, abs_le]
      generalize g' * (k * R) = C at *
      generalize τ * (g * R) = q at *
      generalize g * R = B at *
      generalize g' * Y = A at *
      generalize τ * (τ * r) = w at *
      generalize τ * r = p at *
      norm_num at *
      constructor <;> linarith
    have e1 : g' * (k * R) - g * R = (g' * k - g) * R := by ring
    rw [e1, abs_mul, abs_of_pos hRp, ← mul_assoc] at hBC
    exact le_of_mul_le_mul_right hBC hRp
  -- the samples
  have hX : 0 ≤ |x| := abs_nonneg x
  have k1 : |z' - g' * y| ≤ g' * |y| / 2 ^ 52 + t := h3i'
  have k2 : |g' * y - g' * k * x| ≤ g' * k * |x| / 2 ^ 52 + g' * t := by
    rw [mul_assoc, ← mul_sub, abs_mul, abs_of_pos hg']
    refine (mul_le_mul_of_nonneg_left hyi hg'.le).trans (le_of_eq ?_)
    ring
  have k3 : |g' * k * x - g * x| ≤ (3 * τ + 1 / 2 ^ 50) * (g * |x|) := by
    rw [← sub_mul, abs_mul, ← mul_assoc]
    exact mul_le_mul_of_nonneg_right hfac hX
  have k4 : |z - g * x| ≤ g * |x| / 2 ^ 52 + t := h3i
  have k5 : g' * k * |x| ≤ 2 * (g * |x|) := by
    have h5 : g' * k ≤ 2 * g := by
      have := (abs_le.mp hfac).2
      have : (3 * τ + 1 / 2 ^ 50) * g ≤ 1 * g := mul_le_mul_of_nonneg_right (by norm_num at *; linarith) hg.le
      linarith
    have := mul_le_mul_of_nonneg_right h5 hX
    linarith
  have k6 : g' * |y| ≤ g' * k * |x| + (g' * k * |x| / 2 ^ 52 + g' * t) := by
    have h6 : |y| ≤ k * |x| + (k * |x| / 2 ^ 52 + t) := by
      have h7 := abs_sub_abs_le_abs_sub y (k * x)
      rw [abs_mul, abs_of_pos hk] at h7
      linarith
    refine (mul_le_mul_of_nonneg_left h6 hg'.le).trans (le_of_eq ?_)
    ring
  have k7 : g' * t ≤ 2 ^ 58 * t := mul_le_mul_of_nonneg_right hgu' htiny0
  have k8 : g * |x| ≤ |z| + (g * |x| / 2 ^ 52 + t) := by
    have h7 := abs_sub_abs_le_abs_sub (g * x) z
    rw [abs_mul, abs_of_pos hg, abs_sub_comm] at h7
    linarith
  have hP0 : 0 ≤ g * |x| := by positivity
  have hgt : 0 ≤ g' * t := by positivity
  have hP'0 : 0 ≤ g' * k * |x| := by positivity
  have k9 : g * |x| ≤ (1 + 1 / 2 ^ 51) * |z| + 2 * t := by
    have := abs_nonneg z
    norm_num at *
    linarith
  have k10 : τ * (g * |x|) ≤ τ * ((1 + 1 / 2 ^ 51) * |z| + 2 * t) := mul_le_mul_of_nonneg_left k9 t0
  have hsum : |z' - z| ≤ |z' - g' * y| + |g' * y - g' * k * x| + |g' * k * x - g * x| + |z - g * x| := by
    have h1 := abs_add_le (z' - g' * y + (g' * y - g' * k * x) + (g' * k * x - g * x)) (g * x - z)
    have h2 := abs_add_le (z' - g' * y + (g' * y - g' * k * x)) (g' * k * x - g * x)
    have h3 := abs_add_le (z' - g' * y) (g' * y - g' * k * x)
    rw [abs_sub_comm (g * x) z] at h1
    have e : z' - g' * y + (g' * y - g' * k * x) + (g' * k * x - g * x) + (g * x - z) = z' - z := by ring
    rw [e] at h1
    linarith
  have hz0 := abs_nonneg z
  have k11 : 1 / 2 ^ 35 * |z| ≤ τ * |z| := mul_le_mul_of_nonneg_right hlow hz0
  have k12 : τ * t ≤ 1 / 2 ^ 14 * t := mul_le_mul_of_nonneg_right t1 htiny0
  have e3 : (3 * τ + 1 / 2 ^ 50) * (g * |x|) = 3 * (τ * (g * |x|)) + 1 / 2 ^ 50 * (g * |x|) := by ring
  have e4 : τ * ((1 + 1 / 2 ^ 51) * |z| + 2 * t) = (1 + 1 / 2 ^ 51) * (τ * |z|) + 2 * (τ * t) := by ring
  rw [e3] at k3
  rw [e4] at k10
  have e5 : 4 * τ * |z| = 4 * (τ * |z|) := by ring
  rw [e5]
  generalize |z' - z| = d0 at *
  generalize |z' - g' * y| = d1 at *
  generalize |g' * y - g' * k * x| = d2 at *
  generalize |g' * k * x - g * x| = d3 at *
  generalize |z - g * x| = d4 at *
  generalize τ * (g * |x|) = q1 at *
  generalize τ * |z| = q2 at *
  generalize τ * t = q3 at *
  generalize g' * k * |x| = q4 at *
  generalize g' * |y| = q5 at *
  generalize g' * t = q6 at *
  generalize g * |x| = q7 at *
  generalize |z| = q8 at *
  clear hnear h2 h2' hkR hfac h3i h3i' hyi
  norm_num at *
  linarith

/-- The hypotheses of `C13_rounded` and `C12_rounded`, in binary64. -/
example : |rms ((scaleToMatchSpl (F := B64) ⟨[0.0, 1.0], 16000⟩ (AudioSignal.gainF 2.0 ⟨[0.0, 1.0], 16000⟩)).data.map number) -
      rms (([0.0, 1.0] : List B64).map number)| ≤ ((4 : ℕ) / 2 ^ 48 + 1 / 2 ^ 34) * rms (([0.0, 1.0] : List B64).map number) :=
  (C13_rounded (short_ordinary _).1 (short_doubled _).1 (short_ordinary _).2 (short_doubled _).2 (by norm_num)
    (by norm_num [AudioSignal.gainF])).2.2

example (i : ℕ) : |((scaleToMatchSpl (F := B64) ⟨[0.0, 1.0], 16000⟩ (AudioSignal.gainF 2.0 ⟨[0.0, 1.0], 16000⟩)).data.map number).getD i 0 -
      ((scaleToMatchSpl (F := B64) ⟨[0.0, 1.0], 16000⟩ ⟨[0.0, 1.0], 16000⟩).data.map number).getD i 0| ≤
      ((4 : ℕ) / 2 ^ 46 + 1 / 2 ^ 33) * |((scaleToMatchSpl (F := B64) ⟨[0.0, 1.0], 16000⟩ ⟨[0.0, 1.0], 16000⟩).data.map number).getD i 0| +
        1 / 2 ^ 900 :=
  C12_rounded val_2 (by norm_num) (by norm_num) (short_ordinary _).1 (short_ordinary _).1 (short_doubled _).1 (short_ordinary _).2
    (short_ordinary _).2 (short_doubled _).2 (by norm_num) (by norm_num) i

end Visqol
