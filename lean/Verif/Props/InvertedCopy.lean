import Verif.Props.DelayedCopy
import Verif.Props.ExactlyWhen
import Verif.Props.Level

/-! # C96: a louder, quieter or inverted copy -/

set_option linter.unusedSectionVars false

namespace Visqol
open Spec (Balanced alternating IsBestLag IsDelay ClearPeak accepted shift)

/-! ## The spectrogram -/

theorem filterSignal_gain (num den : Taps ℝ) (g : ℝ) : ∀ (l : List ℝ) (z : ℝ × ℝ),
    filterSignal num den (l.map (g * ·)) (g * z.1, g * z.2) =
      ((filterSignal num den l z).1.map (g * ·), (g * (filterSignal num den l z).2.1, g * (filterSignal num den l z).2.2))
  | [], _ => rfl
  | x :: l, z => by
    have ih := filterSignal_gain num den g l (num.c1 * x + z.2 - den.c1 * (num.c0 * x + z.1), num.c2 * x - den.c2 * (num.c0 * x + z.1))
    rw [List.map_cons, filterSignal, filterSignal]
    dsimp only at ih ⊢
    rw [show num.c1 * (g * x) + g * z.2 - den.c1 * (num.c0 * (g * x) + g * z.1) =
        g * (num.c1 * x + z.2 - den.c1 * (num.c0 * x + z.1)) by ring,
      show num.c2 * (g * x) - den.c2 * (num.c0 * (g * x) + g * z.1) = g * (num.c2 * x - den.c2 * (num.c0 * x + z.1)) by ring, ih,
      show num.c0 * (g * x) + g * z.1 = g * (num.c0 * x + z.1) by ring, List.map_cons]

theorem filterSignal_gain0 (num den : Taps ℝ) (g : ℝ) (l : List ℝ) :
    (filterSignal num den (l.map (g * ·)) (0.0, 0.0)).1 = (filterSignal num den l (0.0, 0.0)).1.map (g * ·) := by
  have := filterSignal_gain num den g l (0.0, 0.0)
  rw [real_lit0, mul_zero] at this
  rw [real_lit0, this]

theorem cascade_gain (c : BandCoeffs ℝ) (g : ℝ) (l : List ℝ) : cascade c (l.map (g * ·)) = (cascade c l).map (g * ·) := by
  unfold cascade
  simp only [filterSignal_gain0]

theorem bandEnergy_gain (c : BandCoeffs ℝ) (g : ℝ) (l : List ℝ) : bandEnergy c (l.map (g * ·)) = |g| * bandEnergy c l := by
  unfold bandEnergy
  rw [cascade_gain, List.length_map, List.map_map]
  have : (List.map ((fun e => e * e) ∘ (g * ·)) (cascade c l)).sum = g ^ 2 * ((cascade c l).map fun e => e * e).sum := by
    rw [← List.sum_map_mul_left]
    congr 1
    apply List.map_congr_left
    intro x _
    simp only [Function.comp_apply]
    ring
  simp only [real_sum, real_sqrt]
  rw [this, mul_div_assoc, Real.sqrt_mul (sq_nonneg g), Real.sqrt_sq_eq_abs]

theorem frameAt_gain (s : AudioSignal ℝ) (g : ℝ) (w : AnalysisWindow ℝ) (j : ℕ) : frameAt (s.gain g) w j = (frameAt s w j).map (g * ·) := by
  unfold frameAt AudioSignal.gain
  rw [← List.map_drop, ← List.map_take]

theorem spectroMat_gain (nb : ℕ) (f : ℝ) (s : AudioSignal ℝ) (g : ℝ) (w : AnalysisWindow ℝ) :
    spectroMat nb f (s.gain g) w = (spectroMat nb f s w).map (|g| * ·) := by
  unfold spectroMat Mat.map
  have hl : (s.gain g).data.length = s.data.length := by simp [AudioSignal.gain]
  have hs : (s.gain g).sampleRate = s.sampleRate := rfl
  simp only [frameAt_gain, bandEnergy_gain, hl, hs, List.map_map]
  congr 1
  apply List.map_congr_left
  intro c _
  rw [Function.comp_apply, List.map_map]
  rfl

theorem spectroMat_inverted (nb : ℕ) (f : ℝ) (s : AudioSignal ℝ) (w : AnalysisWindow ℝ) :
    spectroMat nb f (s.gain (-1)) w = spectroMat nb f s w := by
  rw [spectroMat_gain]
  unfold Mat.map
  simp

/-- C96: a gain scales the spectrogram by its magnitude, whatever its sign. -/
theorem C96_spectrogram (nb : ℕ) (fb fb' : FilterBank ℝ) (s : AudioSignal ℝ) (w : AnalysisWindow ℝ) (g : ℝ) {sp : Spectrogram ℝ}
    (h0 : 0 < w.size) (h : buildSpectrogram nb fb s w = .ok (fb', sp)) :
    ∃ fb'', buildSpectrogram nb fb ⟨s.data.map (g * ·), s.sampleRate⟩ w =
      .ok (fb'', ⟨⟨sp.data.ncols, sp.data.rows.map (List.map (|g| * ·))⟩, sp.centerFreqBands⟩) := by
  have h1 : w.size ≤ s.data.length ∧ 0 < w.hop := by
    unfold buildSpectrogram at h
    dsimp only at h
    by_contra hc
    by_cases hl : s.data.length < w.size
    · rw [if_pos hl] at h; cases h
    · rw [if_neg hl, if_pos (by omega)] at h; cases h
  obtain ⟨f1, e1⟩ := buildSpectrogram_eq nb fb s w h1.1 h1.2 h0
  obtain ⟨f2, e2⟩ := buildSpectrogram_eq nb fb (s.gain g) w (by simpa [AudioSignal.gain] using h1.1) h1.2 h0
  rw [e1] at h
  obtain ⟨so, h2, h⟩ := bind_ok h
  cases h
  refine ⟨f2, ?_⟩
  show buildSpectrogram nb fb (s.gain g) w = _
  rw [e2, show (s.gain g).sampleRate = s.sampleRate from rfl, h2, ok_bind, spectroMat_gain]
  rfl

/-! ## The scores -/

theorem scale_inverted (s : AudioSignal ℝ) : scaleToMatchSpl s (s.gain (-1)) = s.gain (-1) := by
  unfold scaleToMatchSpl
  have : (s.gain (-1)).data = s.data.map (-1 * ·) := rfl
  simp only [spl_real, this, rms_gain, abs_neg, abs_one, one_mul, sub_self, real_powf, zero_div, Real.rpow_zero, mul_one, List.map_id']
  rfl

theorem gain_gain (s : AudioSignal ℝ) (a b : ℝ) : (s.gain a).gain b = s.gain (b * a) := by
  unfold AudioSignal.gain
  simp only [List.map_map]
  congr 1
  apply List.map_congr_left
  intro x _
  simp only [Function.comp_apply]
  ring

/-- Matching the level of a copy of a signal to that signal leaves the signal itself or its inverse. -/
theorem scale_copy (s : AudioSignal ℝ) {g : ℝ} (hg : g ≠ 0) (hs : ∃ x ∈ s.data, x ≠ 0) :
    scaleToMatchSpl s (s.gain g) = s ∨ scaleToMatchSpl s (s.gain g) = s.gain (-1) := by
  rcases lt_or_gt_of_ne hg with h | h
  · right
    have e : s.gain g = (s.gain (-1)).gain (-g) := by rw [gain_gain]; congr 1; ring
    rw [e, scale_gain s (s.gain (-1)) (by linarith), scale_inverted]
    have : (s.gain (-1)).data = s.data.map (-1 * ·) := rfl
    rw [this, rms_gain, abs_neg, abs_one, one_mul]
    exact (rms_pos_iff _).mpr hs
  · left
    rw [scale_gain s s h ((rms_pos_iff _).mpr hs), scaleToMatchSpl_self]

/-- C96: if alignment turns the degraded signal into the reference times a factor other than zero, positive or negative, then the
scores are perfect and equal to those of the reference compared with itself. -/
theorem C96_perfect {p : Profile} {m m' : Manager ℝ} {ref deg al : AudioSignal ℝ} {lag : ℝ} {res : SimilarityResult ℝ} {g : ℝ}
    (hpc : m.patchCreator = .vad 30 ∨ m.patchCreator = .image 20) (hlen : ref.data.length + 30 * m.searchWindow < 2147483647)
    (hal : globallyAlign p ref deg = .ok (some (al, lag))) (hg : g ≠ 0) (hcopy : al = ⟨ref.data.map (g * ·), ref.sampleRate⟩)
    (hs : ∃ x ∈ ref.data, x ≠ 0) (h : m.computeResults p ref deg = .ok (m', res)) :
    ((∀ q ∈ res.patchSims, q.similarity = 1 ∧ (∀ x ∈ q.freqBandMeans, x = 1) ∧ ∀ x ∈ q.freqBandStddevs, x = 0) ∧
      (∀ x ∈ res.fvnsim, x = 1) ∧ res.vnsim = 1 ∧ ∀ x ∈ res.fstdnsim, x = 0) ∧
    ∀ m₁ res₁, m.computeResults p ref ref = .ok (m₁, res₁) →
      res.moslqo = res₁.moslqo ∧ res.vnsim = res₁.vnsim ∧ res.fvnsim = res₁.fvnsim ∧ res.fstdnsim = res₁.fstdnsim ∧
        res.centerFreqBands = res₁.centerFreqBands := by
  obtain ⟨al', lag', hal', ⟨st⟩⟩ := computeResults_stages h
  rw [hal] at hal'
  cases hal'
  have hsame : st.degM = st.refM := by
    have hp := st.prep
    have e : spectroMat m.numBands st.fb1.minFreq (scaleToMatchSpl ref al) (AnalysisWindow.mk' ref.sampleRate 0.25 0.08) =
        spectroMat m.numBands m.filterBank.minFreq ref (AnalysisWindow.mk' ref.sampleRate 0.25 0.08) := by
      rw [st.minFreq1, hcopy]
      rcases scale_copy ref hg hs with e | e
      · rw [show (⟨ref.data.map (g * ·), ref.sampleRate⟩ : AudioSignal ℝ) = ref.gain g from rfl, e]
      · rw [show (⟨ref.data.map (g * ·), ref.sampleRate⟩ : AudioSignal ℝ) = ref.gain g from rfl, e, spectroMat_inverted]
    rw [e] at hp
    exact (prepare_self (spectroMat_wf _ _ _ _) hp).symm
  have hq := st.fine_ones fun r hr => by
    obtain ⟨k, hk⟩ := List.getElem?_of_mem hr
    exact (st.same_coarse hsame hpc hlen k r hk).1
  have hsc := scores_of_ones h hq
  refine ⟨⟨hq, hsc⟩, fun m₁ res₁ h₁ => ?_⟩
  obtain ⟨_, g1, g2, g3⟩ := C11_perfect hpc hlen h₁
  obtain ⟨f1, f2, f3⟩ := hsc
  obtain ⟨l1, l2, _, _, _, _⟩ := C05_shapes h
  obtain ⟨k1, k2, _, _, _, _⟩ := C05_shapes h₁
  obtain ⟨_, _, _, ⟨st₁⟩⟩ := computeResults_stages h₁
  have hf : res.fvnsim = res₁.fvnsim := by
    rw [List.eq_replicate_iff.mpr ⟨rfl, f1⟩, List.eq_replicate_iff.mpr ⟨rfl, g1⟩, l1, k1]
  have hd : res.fstdnsim = res₁.fstdnsim := by
    rw [List.eq_replicate_iff.mpr ⟨rfl, f3⟩, List.eq_replicate_iff.mpr ⟨rfl, g3⟩, l2, k2]
  obtain ⟨q, q1, q2⟩ := st.mos
  obtain ⟨q', q1', q2'⟩ := st₁.mos
  rw [hf, q1'] at q1
  cases q1
  have hc := st.sorted
  rw [st₁.sorted] at hc
  exact ⟨by rw [q2, q2', f2, g2], f2.trans g2.symm, hf, hd, (Except.ok.inj hc).symm⟩

/-! ## The delay -/

theorem balanced_gain {s : List ℝ} (h : Balanced s) (g : ℝ) : Balanced (s.map (g * ·)) := by
  have ha : ∀ l : List ℝ, alternating (l.map (g * ·)) = g * alternating l := by
    intro l
    induction l with
    | nil => simp [alternating]
    | cons x l ih => rw [List.map_cons, alternating, alternating, ih]; ring
  refine ⟨?_, by rw [ha, h.alt, mul_zero]⟩
  rw [List.sum_map_mul_left, List.map_id', h.sum, mul_zero]

theorem xcorr_behind (e f : List ℝ) (c : ℝ) (k : ℕ) (lag : ℤ) :
    xcorr e (List.replicate k c ++ f) lag = c * (∑ j ∈ Finset.range k, sampleAt e (j + lag)) + xcorr e f (lag + k) := by
  unfold xcorr
  rw [List.length_append, List.length_replicate, Finset.sum_range_add, Finset.mul_sum]
  congr 1
  · refine Finset.sum_congr rfl fun j hj => ?_
    have hj := Finset.mem_range.mp hj
    rw [sampleAt_nat (List.replicate k c ++ f), List.getD_eq_getElem?_getD, List.getElem?_append_left (by simpa using hj),
      List.getElem?_replicate, if_pos hj, Option.getD_some, mul_comm]
  · refine Finset.sum_congr rfl fun j _ => ?_
    rw [sampleAt_nat (List.replicate k c ++ f), List.getD_eq_getElem?_getD, List.getElem?_append_right (by simp), List.length_replicate,
      Nat.add_sub_cancel_left, ← List.getD_eq_getElem?_getD, ← sampleAt_nat]
    congr 2
    push_cast
    ring

/-- Correlation with a signal that is nearly proportional. -/
theorem xcorr_proportional {e f : List ℝ} (hl : f.length = e.length) (hnn : ∀ x ∈ e, 0 ≤ x) {a d : ℝ}
    (hd : ∀ i < e.length, |f.getD i 0 - a * e.getD i 0| ≤ d) (lag : ℤ) :
    |xcorr e f lag - a * xcorr e e lag| ≤ d * e.sum := by
  have hnn' : ∀ i, 0 ≤ sampleAt e i := by
    intro i
    unfold sampleAt
    split
    · rw [List.getD_eq_getElem?_getD]
      cases hx : e[i.toNat]? with
      | none => simp
      | some x => simpa using hnn x (List.mem_of_getElem? hx)
    · exact le_rfl
  unfold xcorr
  rw [hl, Finset.mul_sum, ← Finset.sum_sub_distrib]
  have h1 : ∀ j ∈ Finset.range e.length, |sampleAt e (j + lag) * sampleAt f j - a * (sampleAt e (j + lag) * sampleAt e j)| ≤
      d * sampleAt e (j + lag) := by
    intro j hj
    rw [sampleAt_nat f, sampleAt_nat e j, show sampleAt e (j + lag) * f.getD j 0 - a * (sampleAt e (j + lag) * e.getD j 0) =
      (f.getD j 0 - a * e.getD j 0) * sampleAt e (j + lag) by ring, abs_mul, abs_of_nonneg (hnn' _)]
    exact mul_le_mul_of_nonneg_right (hd j (Finset.mem_range.mp hj)) (hnn' _)
  refine (Finset.abs_sum_le_sum_abs _ _).trans ((Finset.sum_le_sum h1).trans ?_)
  rw [← Finset.mul_sum]
  rcases Nat.eq_zero_or_pos e.length with h0 | h0
  · rw [List.length_eq_zero_iff] at h0
    subst h0
    simp
  · exact mul_le_mul_of_nonneg_left (sampleAt_sum_le hnn _ _).2 ((abs_nonneg _).trans (hd 0 h0))

/-- The correlation of a balanced signal with a delayed and scaled copy stands out at the delay, if the ends are loud enough. -/
theorem copy_clear {s : List ℝ} (h : Balanced s) (hne : s ≠ []) (k : ℕ) (g : ℝ) {tol : ℝ} (M N : ℕ)
    (hloud : tol + (1 + 2 * |1 - g|) * ((s.map fun x => |2 * x - 1 / 1000000|).sum / 1000000) <
      |g| * (((2 * s.getD 0 0 - 1 / 1000000) ^ 2 + (2 * s.getD (s.length - 1) 0 - 1 / 1000000) ^ 2) / 2)) :
    ClearPeak (Spec.envelope s M) (Spec.envelope (List.replicate k 0 ++ s.map (g * ·)) N) tol (-k) := by
  have hpos : 0 < s.length := List.length_pos_iff.mpr hne
  rw [envelope_balanced h, envelope_balanced (balanced_delayed (balanced_gain h g) k), List.map_append, List.map_replicate]
  have hc : |2 * (0 : ℝ) - 1 / 1000000| = 1 / 1000000 := by norm_num
  rw [hc]
  have hget' : ∀ i < s.length, (s.map fun x => |2 * x - 1 / 1000000|).getD i 0 = |2 * s.getD i 0 - 1 / 1000000| := by
    intro i hi
    rw [List.getD_eq_getElem?_getD, List.getElem?_map, List.getD_eq_getElem?_getD, List.getElem?_eq_getElem hi, Option.map_some, Option.getD_some,
      Option.getD_some]
  have hget : ∀ i < s.length, (s.map fun x => |2 * x - 1 / 1000000|).getD i 0 ^ 2 = (2 * s.getD i 0 - 1 / 1000000) ^ 2 := by
    intro i hi
    rw [hget' i hi, sq_abs]
  rw [← hget 0 hpos, ← hget (s.length - 1) (by omega)] at hloud
  have hnn : ∀ x ∈ s.map fun x => |2 * x - 1 / 1000000|, 0 ≤ x := by
    intro x hx
    obtain ⟨y, _, rfl⟩ := List.mem_map.mp hx
    exact abs_nonneg _
  have hlen : (s.map fun x => |2 * x - 1 / 1000000|).length = s.length := by simp
  have hlen' : ((s.map (g * ·)).map fun x => |2 * x - 1 / 1000000|).length = (s.map fun x => |2 * x - 1 / 1000000|).length := by simp
  have hnear : ∀ i < (s.map fun x => |2 * x - 1 / 1000000|).length,
      |((s.map (g * ·)).map fun x => |2 * x - 1 / 1000000|).getD i 0 - |g| * (s.map fun x => |2 * x - 1 / 1000000|).getD i 0| ≤
        |1 - g| / 1000000 := by
    intro i hi
    rw [hlen] at hi
    rw [hget' i hi, List.map_map, List.getD_eq_getElem?_getD, List.getElem?_map, List.getD_eq_getElem?_getD, List.getElem?_eq_getElem hi,
      Option.map_some, Option.getD_some, Option.getD_some, ← abs_mul]
    simp only [Function.comp_apply]
    refine (abs_abs_sub_abs_le_abs_sub _ _).trans ?_
    rw [show 2 * (g * s[i]) - 1 / 1000000 - g * (2 * s[i] - 1 / 1000000) = -((1 - g) / 1000000) by ring, abs_neg, abs_div]
    rw [abs_of_pos (by norm_num : (0 : ℝ) < 1000000)]
  have hx := fun lag => xcorr_proportional hlen' hnn hnear lag
  rw [← hlen] at hloud hpos
  generalize (s.map fun x => |2 * x - 1 / 1000000|) = e at *
  generalize ((s.map (g * ·)).map fun x => |2 * x - 1 / 1000000|) = f at *
  have h0 : xcorr e (List.replicate k (1 / 1000000) ++ f) (-k) = xcorr e f 0 := by
    rw [xcorr_behind, Finset.sum_eq_zero, mul_zero, zero_add, neg_add_cancel]
    intro j hj
    exact sampleAt_outside le_rfl (by have := Finset.mem_range.mp hj; omega)
  refine ⟨?_, fun lag _ hlag => ?_⟩
  · rw [List.length_append, List.length_replicate, abs_neg, Nat.abs_cast]
    exact_mod_cast (by omega : k < max e.length (k + f.length))
  · have a1 := self_corr_le e (k := lag + k) (by omega) (List.length_pos_iff.mp hpos)
    obtain ⟨b1, b2⟩ := sampleAt_sum_le hnn k lag
    rw [h0, xcorr_behind]
    have c1 := abs_add_le (1 / 1000000 * (∑ j ∈ Finset.range k, sampleAt e (j + lag))) (xcorr e f (lag + k))
    rw [abs_of_nonneg (by positivity : 0 ≤ 1 / 1000000 * (∑ j ∈ Finset.range k, sampleAt e (j + lag)))] at c1
    have d1 := hx (lag + k)
    have d2 := hx 0
    have d3 : |xcorr e f (lag + k)| ≤ |g| * |xcorr e e (lag + k)| + |1 - g| / 1000000 * e.sum := by
      have := abs_sub_abs_le_abs_sub (xcorr e f (lag + k)) (|g| * xcorr e e (lag + k))
      rw [abs_mul, abs_abs] at this
      linarith
    have d4 : |g| * xcorr e e 0 - |1 - g| / 1000000 * e.sum ≤ |xcorr e f 0| := by
      have := neg_abs_le (xcorr e f 0 - |g| * xcorr e e 0)
      have := le_abs_self (xcorr e f 0)
      linarith
    have d5 := mul_le_mul_of_nonneg_left a1 (abs_nonneg g)
    rw [mul_sub] at d5
    have e1 : (1 + 2 * |1 - g|) * (e.sum / 1000000) = 1 / 1000000 * e.sum + 2 * (|1 - g| / 1000000 * e.sum) := by ring
    rw [e1] at hloud
    have e2 : 1 / 1000000 * (∑ j ∈ Finset.range k, sampleAt e (j + lag)) ≤ 1 / 1000000 * e.sum := by linarith
    linarith

/-- C96: the delay of a scaled or inverted copy is found, if it is at most half the length and the signal has no constant part,
nothing at half the sample rate, and loud ends. -/
theorem C96_found (pad : ℕ → ℕ) {s : List ℝ} (h : Balanced s) (hne : s ≠ []) {k : ℕ} (hk : k ≤ s.length / 2) (g : ℝ)
    (hloud : (1 + 2 * |1 - g|) * ((s.map fun x => |2 * x - 1 / 1000000|).sum / 1000000) <
      |g| * (((2 * s.getD 0 0 - 1 / 1000000) ^ 2 + (2 * s.getD (s.length - 1) 0 - 1 / 1000000) ^ 2) / 2)) :
    IsDelay pad s (List.replicate k 0 ++ s.map (g * ·)) (-k) := by
  refine ⟨-k, clear_best (copy_clear h hne k g _ _ (by rw [zero_add]; exact hloud)), ?_⟩
  unfold accepted
  rw [if_neg (by omega)]

theorem drift_mono {sr a b : ℕ} (h : SmallDrift sr b) (hab : a ≤ b) : SmallDrift sr a := by
  unfold SmallDrift columnCount at *
  refine le_trans (Nat.mul_le_mul_right _ ?_) h
  have := Nat.div_le_div_right (c := windowSamples sr / 4) (Nat.sub_le_sub_right hab (windowSamples sr))
  omega

/-- The delayed, scaled copy. -/
def AudioSignal.copy (k : ℕ) (g : ℝ) (s : AudioSignal ℝ) : AudioSignal ℝ := ⟨List.replicate k 0 ++ s.data.map (g * ·), s.sampleRate⟩

/-- C96: a copy of the reference, delayed by `k` samples and multiplied by `g`, is scored exactly if the reference compared with itself
is, and gets the same, perfect, scores. -/
theorem C96_copy (p : Profile) {pad : ℕ → ℕ} (hpad : ∀ n, 1 ≤ n → n ≤ 2 ^ 63 → nextPowTwo p n = .ok (pad n)) (m : Manager ℝ)
    {ref : AudioSignal ℝ} {k : ℕ} {g : ℝ} (hg : g ≠ 0) (h9 : 9 ≤ ref.data.length) (hs : ∃ x ∈ ref.data, x ≠ 0)
    (hpc : m.patchCreator = .vad 30 ∨ m.patchCreator = .image 20) (hnb : 0 < m.numBands)
    (hmap : ∀ v : List ℝ, v.length = m.numBands → ∃ q, m.mapper.predict v = .ok q)
    (h50 : 50 ≤ ref.sampleRate) (hu32 : ref.sampleRate < 4294967296)
    (hsmall : 4 * ref.data.length + 2 * k + 30 * m.searchWindow < 2147483647)
    (hd : SmallDrift ref.sampleRate (k + ref.data.length + ref.data.length / 2))
    (hfound : IsDelay pad ref.data (ref.copy k g).data (-k)) :
    ((∃ x, m.computeResults p ref (ref.copy k g) = .ok x) ↔ ∃ x, m.computeResults p ref ref = .ok x) ∧
    ∀ m₁ m₂ res₁ res₂, m.computeResults p ref (ref.copy k g) = .ok (m₁, res₁) → m.computeResults p ref ref = .ok (m₂, res₂) →
      res₁.moslqo = res₂.moslqo ∧ res₁.vnsim = 1 ∧ res₁.fvnsim = res₂.fvnsim ∧ res₁.fstdnsim = res₂.fstdnsim ∧
        res₁.centerFreqBands = res₂.centerFreqBands ∧ ∀ q ∈ res₁.patchSims, q.similarity = 1 := by
  have hl : (ref.copy k g).data.length = k + ref.data.length := by simp [AudioSignal.copy]
  obtain ⟨z, hz, ha⟩ := C70_delay p hpad (ref := ref) (deg := ref.copy k g) (by omega) (by omega) (by omega) (by omega)
  rw [C70_unique hz hfound] at ha
  have hsh : (⟨shift (-k) (ref.copy k g).data, (ref.copy k g).sampleRate⟩ : AudioSignal ℝ) = ⟨ref.data.map (g * ·), ref.sampleRate⟩ := by
    unfold shift AudioSignal.copy
    simp
  rw [hsh] at ha
  constructor
  · rw [succeeds_iff p m ha hpc hnb hmap rfl h50 hu32 (by omega) (drift_mono hd (by omega)) (by rw [hl]; exact hd),
      succeeds_iff p m (globallyAlign_self p h9 (by omega)) hpc hnb hmap rfl h50 hu32 (by omega) (drift_mono hd (by omega)) (drift_mono hd (by omega))]
    simp only [List.length_map]
  · intro m₁ m₂ res₁ res₂ h₁ h₂
    obtain ⟨⟨a1, a2, a3, a4⟩, a5⟩ := C96_perfect hpc (by omega) ha hg rfl hs h₁
    obtain ⟨b1, b2, b3, b4, b5⟩ := a5 _ _ h₂
    exact ⟨b1, a3, b3, b4, b5, fun q hq => (a1 q hq).1⟩

/-! ## Examples -/

theorem tone_copy_found (pad : ℕ → ℕ) : IsDelay pad (⟨tone 10000, 16000⟩ : AudioSignal ℝ).data (AudioSignal.copy 16000 (-1) ⟨tone 10000, 16000⟩).data (-16000) := by
  refine C96_found pad (tone_balanced _) ?_ ?_ (-1) ?_
  · rw [Ne, ← List.length_eq_zero_iff, tone_length]; norm_num
  · rw [tone_length]; norm_num
  · obtain ⟨n, hn⟩ : ∃ n, 10000 = n + 1 := ⟨9999, rfl⟩
    have h1 : (n : ℝ) + 1 = 10000 := by exact_mod_cast hn.symm
    rw [hn, tone_sum, tone_last n, show (tone (n + 1)).getD 0 0 = 1 from rfl, show |(1 : ℝ) - -1| = 2 by norm_num, show |(-1 : ℝ)| = 1 by norm_num]
    push_cast
    rw [h1]
    norm_num

/-- `C96_copy` with `C96_perfect` and `C96_found`: two and a half seconds of `tone` against itself, inverted and a second late. -/
example (p : Profile) : ∃ m' res, (⟨32, 60, .image 20, .svr ⟨32, fun _ => some (some 3.0)⟩, FilterBank.new 32 50.0⟩ : Manager ℝ).computeResults p
    ⟨tone 10000, 16000⟩ (AudioSignal.copy 16000 (-1) ⟨tone 10000, 16000⟩) = .ok (m', res) ∧ res.vnsim = 1 := by
  obtain ⟨pad, hpad⟩ := pad_exists p
  have hl : (⟨tone 10000, 16000⟩ : AudioSignal ℝ).data.length = 40000 := tone_length 10000
  have hdr : ∀ n, SmallDrift 16000 n := drift_16k
  have hmem : (1 : ℝ) ∈ tone 10000 := by
    obtain ⟨n, hn⟩ : ∃ n, 10000 = n + 1 := ⟨9999, rfl⟩
    rw [hn, tone]
    exact List.mem_cons_self
  obtain ⟨m₂, res₂, h₂⟩ := C11_fullband_succeeds p (⟨32, 60, .image 20, .svr ⟨32, fun _ => some (some 3.0)⟩, FilterBank.new 32 50.0⟩ : Manager ℝ)
    (ref := ⟨tone 10000, 16000⟩) rfl (by norm_num) (fun v hv => svr_answers hv) (by norm_num) (by norm_num) (by rw [hl]; norm_num) (hdr _)
    (by rw [hl]; unfold columnCount windowSamples; norm_num)
  obtain ⟨h1, h3⟩ := C96_copy p hpad (⟨32, 60, .image 20, .svr ⟨32, fun _ => some (some 3.0)⟩, FilterBank.new 32 50.0⟩ : Manager ℝ)
    (ref := ⟨tone 10000, 16000⟩) (k := 16000) (g := -1) (by norm_num) (by rw [hl]; norm_num) ⟨1, hmem, by norm_num⟩ (.inr rfl) (by norm_num) (fun v hv => svr_answers hv) (by norm_num)
    (by norm_num) (by rw [hl]; norm_num) (hdr _) (tone_copy_found pad)
  obtain ⟨⟨m₁, res₁⟩, h₁⟩ := h1.mpr ⟨_, h₂⟩
  exact ⟨m₁, res₁, h₁, (h3 _ _ _ _ h₁ h₂).2.1⟩

/-- `C96_spectrogram`. -/
example (nb : ℕ) (fb : FilterBank ℝ) : ∃ fb' sp, buildSpectrogram nb fb ⟨[1, -1, 1, 1], 50⟩ (AnalysisWindow.mk' 50 0.25 0.08) = .ok (fb', sp) := by
  obtain ⟨w1, w2, w3⟩ := window_facts (sr := 50) (by norm_num) (by norm_num)
  obtain ⟨f, h⟩ := buildSpectrogram_eq nb fb ⟨[1, -1, 1, 1], 50⟩ (AnalysisWindow.mk' 50 0.25 0.08) 
    (by rw [w1]; unfold windowSamples; simp) (by rw [w2]; omega) (by rw [w1]; omega)
  obtain ⟨so, hs⟩ := sortFreqs_total (rawFreqs nb 50 fb.minFreq)
  rw [h, hs]
  exact ⟨_, _, rfl⟩

end Visqol
