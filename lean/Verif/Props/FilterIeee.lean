import Verif.Lemmas.IeeeSpacing
import Verif.Lemmas.IeeeTime
import Verif.Props.Gammatone
import Verif.Num.Binary64Libm

/-! # The filter bank in floating point: C45, C67, C22 -/

set_option linter.unusedSectionVars false

namespace Visqol
open Ieee

/-- A quadratic with complex conjugate roots and constant term below one has its roots inside the unit circle. -/
theorem roots_inside {r1 r2 : ℝ} (h : r1 ^ 2 ≤ 4 * r2) (h1 : r2 < 1) {z : ℂ} (hz : z ^ 2 + r1 * z + r2 = 0) : ‖z‖ < 1 := by
  obtain ⟨-, p2, p3⟩ := pole_facts h h1.le
  have hn : ‖pole r1 r2‖ < 1 := by
    have e : ‖pole r1 r2‖ ^ 2 = r2 := by
      have := p3
      rw [Complex.mul_conj] at this
      rw [← Complex.normSq_eq_norm_sq]
      exact_mod_cast this
    nlinarith [norm_nonneg (pole r1 r2)]
  have hf : (z - pole r1 r2) * (z - (starRingEnd ℂ) (pole r1 r2)) = 0 := by
    rw [← hz]
    linear_combination -z * p2 + p3
  rcases mul_eq_zero.mp hf with h | h
  · rw [sub_eq_zero.mp h]; exact hn
  · rw [sub_eq_zero.mp h, Complex.norm_conj]; exact hn

variable {F : Type} [Flt F] [Ieee F] [Libm F]

/-- C45, floating point: the stored feedback coefficients of every band are finite numbers, and the filter they describe has both poles
strictly inside the unit circle. -/
theorem C45_stable_rounded {nb sr : ℕ} (h1 : 1000 ≤ sr) (h2 : sr ≤ 1000000) (n1 : 1 ≤ nb) (n2 : nb ≤ 64) {f : F}
    (hf : f ∈ (makeFilters nb sr (50.0 : F) (Flt.ofNat (builderMaxFreq nb sr))).2) :
    ∃ b1 b2 : ℝ, val (bandCoeffs sr f).b1 = .fin b1 ∧ val (bandCoeffs sr f).b2 = .fin b2 ∧
      ∀ z : ℂ, z ^ 2 + b1 * z + b2 = 0 → ‖z‖ < 1 := by
  obtain ⟨c, hc⟩ := centre_tone (F := F) h1 h2 n1 n2 hf
  obtain ⟨r1, r2, e1, e2, h3, h4⟩ := hc.tame.den
  exact ⟨r1, r2, e1, e2, fun z hz => roots_inside h3 h4 hz⟩

example : ∃ f : B64, f ∈ (makeFilters 32 48000 (50.0 : B64) (Flt.ofNat (builderMaxFreq 32 48000))).2 := by
  unfold makeFilters uniformCenterFreqs
  exact ⟨_, List.mem_map.mpr ⟨0, List.mem_range.mpr (by norm_num), rfl⟩⟩

/-- C45, floating point, outputs: a window of at most 131072 samples of absolute value at most 2 is filtered to finite numbers by every
band. -/
theorem C45_outputs_finite {nb sr : ℕ} (h1 : 1000 ≤ sr) (h2 : sr ≤ 1000000) (n1 : 1 ≤ nb) (n2 : nb ≤ 64) {f : F}
    (hf : f ∈ (makeFilters nb sr (50.0 : F) (Flt.ofNat (builderMaxFreq nb sr))).2) {x : List F} (hx : ∀ a ∈ x, ∃ v, val a = .fin v ∧ |v| ≤ 2)
    (hl : x.length ≤ 131072) : ∀ y ∈ cascade (bandCoeffs sr f) x, ∃ v, val y = .fin v := by
  obtain ⟨c, hc⟩ := centre_tone (F := F) h1 h2 n1 n2 hf
  intro y hy
  obtain ⟨v, hv, -⟩ := (cascade_pw hc.tame (m := 1) (fun a ha => by obtain ⟨v, hv, hb⟩ := hx a ha; exact ⟨v, hv, by rw [pow_one]; exact hb⟩)
    (hl.trans (by norm_num)) (by norm_num)).1 y hy
  exact ⟨v, hv⟩

example : ∀ a ∈ List.replicate 1000 (1.0 : B64), ∃ v, val a = .fin v ∧ |v| ≤ 2 := by
  intro a ha
  rw [List.eq_of_mem_replicate ha]
  exact ⟨1, val_1, by norm_num⟩

/-- The exact frequencies fall by more than two Hertz from one to the next, and start more than two Hertz below the upper limit. -/
theorem exactCentre_gap {nb sr i j : ℕ} (h1 : 1000 ≤ sr) (h2 : sr ≤ 1000000) (n2 : nb ≤ 64) (hij : i < j) (hj : j < nb) :
    exactCentre nb sr j + 2 ≤ exactCentre nb sr i := by
  obtain ⟨U1, U2⟩ := upperLimit_size (nb := nb) h1 h2
  unfold exactCentre
  generalize upperLimit nb sr = U at *
  obtain ⟨K, hK, hKv⟩ : ∃ K : ℝ, (9.26449 * 24.7 : ℝ) = K ∧ K = 228832903 / 1000000 := ⟨_, rfl, by norm_num⟩
  rw [hK]
  have K1 : 228 ≤ K := by rw [hKv]; norm_num
  have K2 : K ≤ 229 := by rw [hKv]; norm_num
  clear hK hKv
  have H0 : 0 < U + K := by linarith
  have L0 : 0 < 50 + K := by linarith
  have hlog : Real.log (50 + K) - Real.log (U + K) = Real.log ((50 + K) / (U + K)) := (Real.log_div L0.ne' H0.ne').symm
  rw [hlog]
  have hr : (50 + K) / (U + K) ≤ 2 / 5 := by rw [div_le_iff₀ H0]; linarith
  have r0 : 0 < (50 + K) / (U + K) := by positivity
  have lam : Real.log ((50 + K) / (U + K)) ≤ -(3 / 5) := by
    have := Real.log_le_sub_one_of_pos r0
    linarith
  have hexp := Real.exp_log r0
  generalize Real.log ((50 + K) / (U + K)) = l at *
  have m2 : (nb : ℝ) ≤ 64 := by exact_mod_cast n2
  have m1 : (1 : ℝ) ≤ nb := by exact_mod_cast (by omega : 1 ≤ nb)
  have nb0 : (0 : ℝ) < nb := by linarith
  have q : l / nb ≤ -(3 / 320) := by rw [div_le_iff₀ nb0]; linarith
  have hij' : (i : ℝ) + 1 ≤ j := by exact_mod_cast hij
  have hj' : (j : ℝ) + 1 ≤ nb := by exact_mod_cast hj
  have e1 : Real.exp ((i + 1) * (l / nb)) = Real.exp ((j + 1) * (l / nb)) * Real.exp ((j - i) * -(l / nb)) := by
    rw [← Real.exp_add]; congr 1; ring
  have e2 : (50 + K) / (U + K) ≤ Real.exp ((j + 1) * (l / nb)) := by
    rw [← hexp]
    apply Real.exp_le_exp.mpr
    rw [mul_div_assoc', le_div_iff₀ nb0]
    nlinarith
  have e3 : 1 + 3 / 320 ≤ Real.exp ((j - i) * -(l / nb)) := by
    have := Real.add_one_le_exp ((j - i) * -(l / nb))
    have : 1 * (3 / 320) ≤ ((j : ℝ) - i) * -(l / nb) := mul_le_mul (by linarith) (by linarith) (by norm_num) (by linarith)
    linarith
  rw [e1]
  have p0 := Real.exp_pos ((j + 1) * (l / nb))
  generalize Real.exp ((j + 1) * (l / nb)) = P at *
  generalize Real.exp ((j - i) * -(l / nb)) = Q at *
  have hP : 50 + K ≤ P * (U + K) := by rwa [div_le_iff₀ H0] at e2
  have : P * (U + K) * (1 + 3 / 320) ≤ P * (U + K) * Q := mul_le_mul_of_nonneg_left e3 (mul_pos p0 H0).le
  nlinarith

theorem exactCentre_lt {nb sr i : ℕ} (h1 : 1000 ≤ sr) (h2 : sr ≤ 1000000) (n2 : nb ≤ 64) (hi : i < nb) :
    exactCentre nb sr i + 2 ≤ upperLimit nb sr := by
  obtain ⟨U1, U2⟩ := upperLimit_size (nb := nb) h1 h2
  unfold exactCentre
  generalize upperLimit nb sr = U at *
  obtain ⟨K, hK, hKv⟩ : ∃ K : ℝ, (9.26449 * 24.7 : ℝ) = K ∧ K = 228832903 / 1000000 := ⟨_, rfl, by norm_num⟩
  rw [hK]
  have K1 : 228 ≤ K := by rw [hKv]; norm_num
  have K2 : K ≤ 229 := by rw [hKv]; norm_num
  clear hK hKv
  have H0 : 0 < U + K := by linarith
  have L0 : 0 < 50 + K := by linarith
  have hlog : Real.log (50 + K) - Real.log (U + K) = Real.log ((50 + K) / (U + K)) := (Real.log_div L0.ne' H0.ne').symm
  rw [hlog]
  have hr : (50 + K) / (U + K) ≤ 2 / 5 := by rw [div_le_iff₀ H0]; linarith
  have r0 : 0 < (50 + K) / (U + K) := by positivity
  have lam : Real.log ((50 + K) / (U + K)) ≤ -(3 / 5) := by
    have := Real.log_le_sub_one_of_pos r0
    linarith
  generalize Real.log ((50 + K) / (U + K)) = l at *
  have m2 : (nb : ℝ) ≤ 64 := by exact_mod_cast n2
  have m1 : (1 : ℝ) ≤ nb := by exact_mod_cast (by omega : 1 ≤ nb)
  have nb0 : (0 : ℝ) < nb := by linarith
  have q : l / nb ≤ -(3 / 320) := by rw [div_le_iff₀ nb0]; linarith
  have i0 : (0 : ℝ) ≤ i := Nat.cast_nonneg i
  have e1 : Real.exp ((i + 1) * (l / nb)) ≤ Real.exp (-(3 / 320)) := Real.exp_le_exp.mpr (by nlinarith)
  have e2 : Real.exp (-(3 / 320)) ≤ 1 - 3 / 400 := by
    rw [Real.exp_neg, inv_le_comm₀ (Real.exp_pos _) (by norm_num)]
    have := Real.add_one_le_exp (3 / 320 : ℝ)
    norm_num at this ⊢
    linarith
  have := mul_le_mul_of_nonneg_right (e1.trans e2) H0.le
  nlinarith

/-- Position `nb - 1 - i` from the highest is position `i` on the ERB scale from 50 Hz. -/
theorem exactCentre_erb {nb sr i : ℕ} (h1 : 1000 ≤ sr) (h2 : sr ≤ 1000000) (hi : i < nb) :
    Spec.erbNumber (exactCentre nb sr (nb - 1 - i)) = Spec.erbNumber 50 + i / nb * (Spec.erbNumber (upperLimit nb sr) - Spec.erbNumber 50) := by
  obtain ⟨U1, U2⟩ := upperLimit_size (nb := nb) h1 h2
  unfold exactCentre
  generalize upperLimit nb sr = U at *
  have hn : (0 : ℝ) < nb := by exact_mod_cast Nat.lt_of_le_of_lt (Nat.zero_le i) hi
  have e : ((nb - 1 - i : ℕ) : ℝ) + 1 = nb - i := by
    rw [Nat.sub_sub, Nat.cast_sub (by omega)]; push_cast; ring
  rw [e]
  have hk : (0 : ℝ) < 9.26449 * 24.7 := by norm_num
  unfold Spec.erbNumber
  generalize (9.26449 * 24.7 : ℝ) = k at *
  have hlog : ∀ x : ℝ, 0 < x + k → Real.log (1 + x / k) = Real.log (x + k) - Real.log k := by
    intro x hx
    rw [← Real.log_div hx.ne' hk.ne']
    congr 1
    field_simp
    ring
  rw [hlog 50 (by linarith), hlog U (by linarith), hlog]
  · rw [neg_add_cancel_comm, Real.log_mul (Real.exp_pos _).ne' (by linarith), Real.log_exp]
    field_simp
    ring
  · have : 0 < U + k := by linarith
    have := mul_pos (Real.exp_pos ((nb - i) * ((Real.log (50 + k) - Real.log (U + k)) / nb))) this
    linarith

theorem exactCentre_last {nb sr : ℕ} (h1 : 1000 ≤ sr) (h2 : sr ≤ 1000000) (hn : 0 < nb) : exactCentre nb sr (nb - 1) = 50 := by
  obtain ⟨U1, U2⟩ := upperLimit_size (nb := nb) h1 h2
  unfold exactCentre
  generalize upperLimit nb sr = U at *
  have hk : (0 : ℝ) < 9.26449 * 24.7 := by norm_num
  generalize (9.26449 * 24.7 : ℝ) = k at *
  have e : ((nb - 1 : ℕ) : ℝ) + 1 = nb := by rw [Nat.cast_sub hn]; simp
  have hne : (nb : ℝ) ≠ 0 := by positivity
  rw [e, mul_div_cancel₀ _ hne, Real.exp_sub, Real.exp_log (by linarith), Real.exp_log (by linarith), div_mul_cancel₀ _ (by linarith)]
  ring

/-- The real number a finite float stands for. -/
noncomputable def realOf (a : F) : ℝ := match val a with
  | .fin x => x
  | _ => 0

theorem realOf_eq {a : F} {x : ℝ} (h : Is a x) : realOf a = x := by
  unfold realOf
  rw [show val a = .fin x from h]

/-- Sorting a list whose values fall strictly reverses it. -/
theorem sortFreqs_ieee {l : List F} (hn : ∀ a ∈ l, ∃ x, Is a x) (h : (l.map realOf).Pairwise (· > ·)) : sortFreqs l = .ok l.reverse := by
  unfold sortFreqs
  have hnan : l.any Flt.isNaN = false := by
    rw [List.any_eq_false]
    intro a ha
    obtain ⟨x, hx⟩ := hn a ha
    rw [hx.notNaN]; simp
  rw [if_neg (by rw [hnan]; simp)]
  congr 1
  have hm : (l.mergeSort fun a b => !Flt.lt b a).map realOf = (l.map realOf).mergeSort fun a b => decide (a ≤ b) := by
    apply List.map_mergeSort
    intro a ha b hb
    obtain ⟨x, hx⟩ := hn a ha
    obtain ⟨y, hy⟩ := hn b hb
    rw [hy.lt hx, realOf_eq hx, realOf_eq hy]
    by_cases hc : y < x
    · simp [hc]
    · simp [hc, not_lt.mp hc]
  have hr : (l.map realOf).mergeSort (fun a b => decide (a ≤ b)) = (l.map realOf).reverse := by
    refine (((List.mergeSort_perm _ _).trans (List.reverse_perm _).symm)).eq_of_pairwise' (r := (· ≤ ·)) ?_ ?_
    · exact List.pairwise_mergeSort' (· ≤ ·) _
    · rw [List.pairwise_reverse]
      exact h.imp fun h => le_of_lt h
  rw [hr, ← List.map_reverse] at hm
  have hnd : (l.map realOf).Nodup := h.imp fun h => (ne_of_lt h).symm
  have hinj := List.inj_on_of_nodup_map hnd
  have hlen : (l.mergeSort fun a b => !Flt.lt b a).length = l.reverse.length := by rw [List.length_mergeSort, List.length_reverse]
  refine List.ext_getElem hlen fun k k1 k2 => hinj ?_ ?_ ?_
  · exact List.mem_mergeSort.mp (List.getElem_mem k1)
  · exact List.mem_reverse.mp (List.getElem_mem k2)
  · have := congrArg (fun m => m[k]?) hm
    simp only [List.getElem?_map, List.getElem?_eq_getElem k1, List.getElem?_eq_getElem k2, Option.map_some] at this
    exact Option.some.inj this

theorem raw_length (nb sr : ℕ) (lo : F) : (rawFreqs nb sr lo).length = nb := by
  simp [rawFreqs, makeFilters, uniformCenterFreqs]

/-- The sorted frequencies are the raw ones in reverse. -/
theorem bands_ieee {nb sr : ℕ} (h1 : 1000 ≤ sr) (h2 : sr ≤ 1000000) (n2 : nb ≤ 64) :
    sortFreqs (rawFreqs nb sr (50.0 : F)) = .ok (rawFreqs nb sr (50.0 : F)).reverse := by
  have hU := upperLimit_size (nb := nb) h1 h2
  have near := fun i (hi : i < nb) => centre_near (F := F) h1 h2 n2 hi
  have hlen := raw_length nb sr (50.0 : F)
  refine sortFreqs_ieee ?_ ?_
  · intro a ha
    obtain ⟨i, hi, rfl⟩ := List.getElem_of_mem ha
    obtain ⟨f, hf, c, hc, -⟩ := near i (by omega)
    rw [List.getElem?_eq_getElem hi] at hf
    rw [Option.some.inj hf]
    exact ⟨c, hc⟩
  · rw [List.pairwise_iff_getElem]
    intro i j hi hj hij
    rw [List.length_map] at hi hj
    obtain ⟨f, hf, c, hc, hce⟩ := near i (by omega)
    obtain ⟨g, hg, d, hd, hde⟩ := near j (by omega)
    rw [List.getElem?_eq_getElem hi] at hf
    rw [List.getElem?_eq_getElem hj] at hg
    rw [List.getElem_map, List.getElem_map, Option.some.inj hf, Option.some.inj hg, realOf_eq hc, realOf_eq hd]
    have gap := exactCentre_gap (nb := nb) (sr := sr) h1 h2 n2 hij (by omega)
    have r : upperLimit nb sr / 2 ^ 30 ≤ 1 / 1000 := by norm_num; linarith [hU.2]
    have a1 := (abs_le.mp hce).1
    have a2 := (abs_le.mp hde).2
    show d < c
    linarith

theorem band_at {nb sr i : ℕ} (h1 : 1000 ≤ sr) (h2 : sr ≤ 1000000) (n2 : nb ≤ 64) (hi : i < nb) :
    ∃ f c, (rawFreqs nb sr (50.0 : F)).reverse[i]? = some f ∧ val f = .fin c ∧
      |c - exactCentre nb sr (nb - 1 - i)| ≤ upperLimit nb sr / 2 ^ 30 := by
  obtain ⟨f, hf, c, hc, he⟩ := centre_near (F := F) h1 h2 n2 (show nb - 1 - i < nb by omega)
  have hlen := raw_length nb sr (50.0 : F)
  exact ⟨f, c, by rw [List.getElem?_reverse (by omega), hlen]; exact hf, hc, he⟩

/-- The claim of C22 in floating point: the frequencies are finite, rise strictly, start at 50 Hz (up to a thousandth) and stay below the
upper limit. -/
structure Ascending (nb : ℕ) (hi : ℝ) (bands : List F) : Prop where
  count : bands.length = nb
  number : ∀ f ∈ bands, ∃ x, val f = .fin x ∧ 50 - 1 / 1000 ≤ x ∧ x < hi
  first : 0 < nb → ∃ f x, bands[0]? = some f ∧ val f = .fin x ∧ |x - 50| ≤ 1 / 1000
  increasing : bands.Pairwise fun f g => ∃ x y, val f = .fin x ∧ val g = .fin y ∧ x < y

theorem ascending {nb sr : ℕ} (h1 : 1000 ≤ sr) (h2 : sr ≤ 1000000) (n2 : nb ≤ 64) :
    Ascending nb (upperLimit nb sr) (rawFreqs nb sr (50.0 : F)).reverse := by
  have hU := upperLimit_size (nb := nb) h1 h2
  have r : upperLimit nb sr / 2 ^ 30 ≤ 1 / 1000 := by norm_num; linarith [hU.2]
  have hlen : (rawFreqs nb sr (50.0 : F)).reverse.length = nb := by rw [List.length_reverse, raw_length]
  have at_ := fun i (hi : i < nb) => band_at (F := F) (sr := sr) h1 h2 n2 hi
  refine ⟨hlen, ?_, ?_, ?_⟩
  · intro f hf
    obtain ⟨i, hi, rfl⟩ := List.getElem_of_mem hf
    have hi' : i < nb := by omega
    obtain ⟨g, c, hg, hc, he⟩ := at_ i hi'
    rw [List.getElem?_eq_getElem hi] at hg
    rw [Option.some.inj hg]
    have a1 := (abs_le.mp he).1
    have a2 := (abs_le.mp he).2
    have lt := exactCentre_lt (nb := nb) (sr := sr) (i := nb - 1 - i) h1 h2 n2 (by omega)
    have low : 50 ≤ exactCentre nb sr (nb - 1 - i) := by
      rcases Nat.eq_zero_or_pos i with rfl | h0
      · rw [Nat.sub_zero, exactCentre_last h1 h2 (by omega)]
      · have := exactCentre_gap (nb := nb) (sr := sr) (i := nb - 1 - i) (j := nb - 1) h1 h2 n2 (by omega) (by omega)
        rw [exactCentre_last h1 h2 (by omega)] at this
        linarith
    exact ⟨c, hc, by linarith, by linarith⟩
  · intro hn
    obtain ⟨g, c, hg, hc, he⟩ := at_ 0 hn
    rw [Nat.sub_zero, exactCentre_last h1 h2 hn] at he
    exact ⟨g, c, hg, hc, he.trans r⟩
  · rw [List.pairwise_iff_getElem]
    intro i j hi hj hij
    obtain ⟨f, c, hf, hc, hce⟩ := at_ i (by omega)
    obtain ⟨g, d, hg, hd, hde⟩ := at_ j (by omega)
    rw [List.getElem?_eq_getElem hi] at hf
    rw [List.getElem?_eq_getElem hj] at hg
    rw [Option.some.inj hf, Option.some.inj hg]
    have gap := exactCentre_gap (nb := nb) (sr := sr) (i := nb - 1 - j) (j := nb - 1 - i) h1 h2 n2 (by omega) (by omega)
    have a1 := (abs_le.mp hce).2
    have a2 := (abs_le.mp hde).1
    exact ⟨c, d, hc, hd, by linarith⟩

/-- C22, floating point: the frequencies of a spectrogram. -/
theorem C22_bands_rounded {nb : ℕ} {fb fb' : FilterBank F} {s : AudioSignal F} {w : AnalysisWindow F} {sp : Spectrogram F}
    (h : buildSpectrogram nb fb s w = .ok (fb', sp)) (hmf : fb.minFreq = 50.0) (h1 : 1000 ≤ s.sampleRate) (h2 : s.sampleRate ≤ 1000000)
    (n2 : nb ≤ 64) : Ascending nb (upperLimit nb s.sampleRate) sp.centerFreqBands := by
  have := (buildSpectrogram_ok h).2.2.2.2
  rw [hmf, bands_ieee h1 h2 n2] at this
  rw [← Except.ok.inj this]
  exact ascending h1 h2 n2

/-- C22, floating point, rows: entry `(b, j)` is computed from frame `j` with the coefficients designed for the frequency reported at
position `b`. -/
theorem C22_rows_rounded {nb : ℕ} {fb fb' : FilterBank F} {s : AudioSignal F} {w : AnalysisWindow F} {sp : Spectrogram F}
    (h : buildSpectrogram nb fb s w = .ok (fb', sp)) (hmf : fb.minFreq = 50.0) (h1 : 1000 ≤ s.sampleRate) (h2 : s.sampleRate ≤ 1000000)
    (n2 : nb ≤ 64) {b j : ℕ} {f : F} (hb : sp.centerFreqBands[b]? = some f) (hj : j < sp.data.ncols) :
    sp.data.at b j = bandEnergy (bandCoeffs s.sampleRate f) ((s.data.drop (j * w.hop)).take w.size) := by
  obtain ⟨k1, k2, k3, k4, k5⟩ := buildSpectrogram_ok h
  rw [hmf, bands_ieee h1 h2 n2] at k5
  rw [← Except.ok.inj k5] at hb
  have hrow : (rowCoeffs nb s.sampleRate fb.minFreq)[b]? = some (bandCoeffs s.sampleRate f) := by
    rw [rowCoeffs_eq, hmf, List.getElem?_map, hb]
    rfl
  rw [k4] at hj ⊢
  have hj' : j < numColumns s.data.length w.size w.hop := hj
  unfold Mat.at spectroMat
  simp only [List.getD_eq_getElem?_getD, List.getElem?_map, hrow, Option.map_some, Option.getD_some, List.getElem?_range hj']
  rfl

/-- C22, floating point: the frequencies reported by a comparison. -/
theorem C22_result_rounded [RustFft F] {p : Profile} {m m' : Manager F} {ref deg : AudioSignal F} {res : SimilarityResult F}
    (hm : m.filterBank.minFreq = 50.0) (h : m.computeResults p ref deg = .ok (m', res)) (h1 : 1000 ≤ ref.sampleRate)
    (h2 : ref.sampleRate ≤ 1000000) (n2 : m.numBands ≤ 64) :
    Ascending m.numBands (upperLimit m.numBands ref.sampleRate) res.centerFreqBands := by
  obtain ⟨al, lag, _, ⟨st⟩⟩ := computeResults_stages h
  have := st.sorted
  rw [hm, bands_ieee h1 h2 n2] at this
  rw [← Except.ok.inj this]
  exact ascending h1 h2 n2

/-- C67, floating point: the reported frequency number `i` is within `hi / 2^30` of the frequency whose ERB number lies `i / nb` of the way
from 50 Hz to the upper limit `hi`. -/
theorem C67_spacing_rounded {nb : ℕ} {fb fb' : FilterBank F} {s : AudioSignal F} {w : AnalysisWindow F} {sp : Spectrogram F}
    (h : buildSpectrogram nb fb s w = .ok (fb', sp)) (hmf : fb.minFreq = 50.0) (h1 : 1000 ≤ s.sampleRate) (h2 : s.sampleRate ≤ 1000000)
    (n2 : nb ≤ 64) {i : ℕ} (hi : i < nb) : ∃ f c f0, sp.centerFreqBands[i]? = some f ∧ val f = .fin c ∧
      Spec.erbNumber f0 = Spec.erbNumber 50 + i / nb * (Spec.erbNumber (upperLimit nb s.sampleRate) - Spec.erbNumber 50) ∧
      50 ≤ f0 ∧ |c - f0| ≤ upperLimit nb s.sampleRate / 2 ^ 30 := by
  have := (buildSpectrogram_ok h).2.2.2.2
  rw [hmf, bands_ieee h1 h2 n2] at this
  rw [← Except.ok.inj this]
  obtain ⟨f, c, hf, hc, he⟩ := band_at (F := F) (nb := nb) h1 h2 n2 hi
  refine ⟨f, c, _, hf, hc, exactCentre_erb h1 h2 hi, ?_, he⟩
  rcases Nat.eq_zero_or_pos i with rfl | h0
  · rw [Nat.sub_zero, exactCentre_last h1 h2 (by omega)]
  · have := exactCentre_gap (nb := nb) (sr := s.sampleRate) (i := nb - 1 - i) (j := nb - 1) h1 h2 n2 (by omega) (by omega)
    rw [exactCentre_last h1 h2 (by omega)] at this
    linarith

/-- The hypotheses of the four theorems above are met by every signal of at least 1280 samples at 16 kHz. -/
example (x : List B64) (hx : 1280 ≤ x.length) : ∃ (fb' : FilterBank B64) (sp : Spectrogram B64),
    buildSpectrogram 21 (FilterBank.new 21 50.0) ⟨x, 16000⟩ ⟨1280, 0.25⟩ = .ok (fb', sp) ∧ (FilterBank.new 21 (50.0 : B64)).minFreq = 50.0 := by
  obtain ⟨fb', h⟩ := buildSpectrogram_eq 21 (FilterBank.new 21 (50.0 : B64)) ⟨x, 16000⟩ ⟨1280, 0.25⟩ hx
    (by rw [ieee_hop (by norm_num)]; norm_num) (by norm_num)
  have hs : sortFreqs (rawFreqs 21 16000 (50.0 : B64)) = .ok _ := bands_ieee (by norm_num) (by norm_num) (by norm_num)
  have h' : buildSpectrogram 21 (FilterBank.new 21 (50.0 : B64)) ⟨x, 16000⟩ ⟨1280, 0.25⟩ =
      (sortFreqs (rawFreqs 21 16000 (50.0 : B64)) >>= fun sorted => .ok (fb', ⟨spectroMat 21 50.0 ⟨x, 16000⟩ ⟨1280, 0.25⟩, sorted⟩)) := h
  rw [hs] at h'
  exact ⟨fb', _, h', rfl⟩

end Visqol
