import Verif.Lemmas.IeeeSelfTotal
import Verif.Lemmas.IeeeCentre
import Verif.Props.NoFailureIeee

/-! # C11 in floating point -/

set_option linter.unusedSectionVars false

namespace Visqol
open Ieee

theorem sum_eq_range (l : List ℝ) : l.sum = ∑ i ∈ Finset.range l.length, l.getD i 0 := by
  induction l with
  | nil => simp
  | cons a l ih => rw [List.sum_cons, List.length_cons, Finset.sum_range_succ', ih, add_comm]; simp

theorem sum_exchange {α : Type} (l : List α) (f : α → Nat → ℝ) (n : Nat) :
    (l.map fun q => ∑ b ∈ Finset.range n, f q b).sum = ∑ b ∈ Finset.range n, (l.map fun q => f q b).sum := by
  induction l with
  | nil => simp
  | cons a l ih => simp only [List.map_cons, List.sum_cons, ih, Finset.sum_add_distrib]

variable {F : Type} [Flt F] [Ieee F]

theorem sum_number (l : List F) {n : Nat} (h : l.length = n) : (l.map number).sum = ∑ b ∈ Finset.range n, number (l.getD b 0.0) := by
  rw [sum_eq_range, List.length_map, h]
  refine Finset.sum_congr rfl fun b hb => ?_
  have hb := Finset.mem_range.mp hb
  simp [List.getD, List.getElem?_eq_getElem (show b < l.length by omega)]

variable [Libm F] [RustFft F]

/-- The mean over the bands is not below the mean over the patches, up to rounding. -/
theorem vnsim_ge {p : Profile} {m m' : Manager F} {ref deg : AudioSignal F} {res : SimilarityResult F}
    (h : m.computeResults p ref deg = .ok (m', res)) (hpc : m.patchCreator = .vad 30 ∨ m.patchCreator = .image 20) (hnb : m.numBands ≤ 32)
    (hlen : ref.data.length ≤ 2 ^ 40) (hn : res.patchSims.length ≤ 2 ^ 20) (hf : FiniteScores res) :
    mean (res.patchSims.map fun q => number q.similarity) - 13 / 100000 ≤ number res.vnsim := by
  obtain ⟨l1, _, _, _, hne, hl⟩ := C05_shapes h
  obtain ⟨c1, c2, c3⟩ := C06_rounded h hpc hnb hlen hf
  obtain ⟨al, lag, _, ⟨st⟩⟩ := computeResults_stages h
  have hnb0 : 0 < m.numBands := by
    have hv := st.vn
    unfold meanOpt at hv
    split at hv
    · cases hv
    · rename_i hne
      have := List.length_pos_iff.mpr hne
      omega
  have hn0 : 0 < res.patchSims.length := List.length_pos_iff.mpr hne
  have hnr : (0 : ℝ) < res.patchSims.length := by exact_mod_cast hn0
  have hnr2 : (res.patchSims.length : ℝ) ≤ 2 ^ 20 := by exact_mod_cast hn
  have hbr : (0 : ℝ) < m.numBands := by exact_mod_cast hnb0
  set L := res.patchSims with hL
  have herr : (L.length + 3 : ℝ) / 2 ^ 33 ≤ 1229 / 10 ^ 7 := by
    rw [div_le_iff₀ (by norm_num)]
    refine (add_le_add hnr2 le_rfl).trans ?_
    norm_num
  -- each patch
  have e1 : (L.map fun q => number q.similarity).sum ≤ (L.map fun q => (∑ b ∈ Finset.range m.numBands, number (q.freqBandMeans.getD b 0.0)) * (1 / m.numBands) + 1 / 1000000).sum := by
    refine List.sum_le_sum fun q hq => ?_
    have h1 := (abs_le.mp (c3 q hq)).2
    unfold mean at h1
    rw [List.length_map, (hl q hq).1, sum_number _ (hl q hq).1, div_eq_mul_one_div] at h1
    linarith
  rw [List.sum_map_add, List.sum_map_mul_right, List.map_const', List.sum_replicate, nsmul_eq_mul, sum_exchange] at e1
  -- each band
  have e2 : ∑ b ∈ Finset.range m.numBands, ((L.map fun q => number (q.freqBandMeans.getD b 0.0)).sum * (1 / L.length) - 1229 / 10 ^ 7) ≤
      ∑ b ∈ Finset.range m.numBands, number (res.fvnsim.getD b 0.0) := by
    refine Finset.sum_le_sum fun b hb => ?_
    have h1 := (abs_le.mp (c2 b (Finset.mem_range.mp hb))).1
    unfold mean at h1
    rw [List.length_map, div_eq_mul_one_div _ (L.length : ℝ)] at h1
    linarith only [h1, herr]
  rw [Finset.sum_sub_distrib, ← Finset.sum_mul, Finset.sum_const, Finset.card_range, nsmul_eq_mul, ← sum_number _ l1] at e2
  have h1 := (abs_le.mp c1).1
  unfold mean at h1 ⊢
  rw [List.length_map, l1] at h1
  rw [List.length_map]
  generalize (res.fvnsim.map number).sum = A at *
  generalize (L.map fun q => number q.similarity).sum = S at *
  generalize ∑ b ∈ Finset.range m.numBands, (L.map fun q => number (q.freqBandMeans.getD b 0.0)).sum = T at *
  generalize (L.length : ℝ) = n at *
  generalize (m.numBands : ℝ) = k at *
  have f1 : S / n ≤ T * (1 / k) * (1 / n) + 1 / 1000000 := by
    rw [div_le_iff₀ hnr, add_mul, mul_assoc, one_div_mul_cancel hnr.ne']
    linarith
  have f2 : T * (1 / n) * (1 / k) - 1229 / 10 ^ 7 ≤ A / k := by
    rw [le_div_iff₀ hbr, sub_mul, mul_assoc, one_div_mul_cancel hbr.ne']
    linarith
  have f3 : T * (1 / k) * (1 / n) = T * (1 / n) * (1 / k) := by ring
  rw [f3] at f1
  generalize T * (1 / n) * (1 / k) = U at *
  norm_num at *
  linarith

variable [UnitLaws F]

/-- Comparing a signal with one that has, after alignment and level matching, the same spectrogram gives a `vnsim` of at least 0.989 and,
in wideband, a MOS of at least 3.99 (unscaled) or 4.8 (scaled). -/
theorem same_result_rounded {p : Profile} {m m' : Manager F} {ref deg al : AudioSignal F} {res : SimilarityResult F} {lag : F}
    (h : m.computeResults p ref deg = .ok (m', res)) (hpc : m.patchCreator = .vad 30 ∨ m.patchCreator = .image 20) (hnb : m.numBands ≤ 32)
    (hmf : m.filterBank.minFreq = 50.0) (h1k : 1000 ≤ ref.sampleRate) (h1m : ref.sampleRate ≤ 1000000)
    (hrs : OrdinarySamples ref) (hsw : m.searchWindow ≤ 2 ^ 15)
    (hlen : ref.data.length + 30 * m.searchWindow < 2147483647)
    (hcover : columnCount ref.sampleRate ref.data.length ≤ m.searchWindow * m.patchCreator.patchSize + 1)
    (hlag : globallyAlign p ref deg = .ok (some (al, lag)))
    (hspec : spectroMat m.numBands m.filterBank.minFreq (scaleToMatchSpl ref al) (AnalysisWindow.mk' ref.sampleRate 0.25 0.08) =
      spectroMat m.numBands m.filterBank.minFreq ref (AnalysisWindow.mk' ref.sampleRate 0.25 0.08)) (hf : FiniteScores res) :
    989 / 1000 ≤ number res.vnsim ∧
    ∀ s, m.mapper = .speech s → ∃ z, val res.moslqo = .fin z ∧ (if s then 48 / 10 else 399 / 100) ≤ z ∧ z ≤ 5 := by
  obtain ⟨w1, w2, w3⟩ := ieee_window_facts (F := F) (sr := ref.sampleRate) (by omega) (by omega)
  have hv : 989 / 1000 ≤ number res.vnsim := by
    obtain ⟨al', lag', hal, ⟨st⟩⟩ := computeResults_stages h
    rw [hlag] at hal
    cases hal
    have hsame : st.degM = st.refM := by
      have hp := st.prep
      rw [st.minFreq1, hspec] at hp
      exact (prepare_self (spectroMat_wf _ _ _ _) hp).symm
    obtain ⟨_, _, s1, _, s5, _⟩ := st.shapes
    have hcol : columnCount ref.sampleRate ref.data.length = numColumns ref.data.length (AnalysisWindow.mk' ref.sampleRate (0.25 : F) 0.08).size
        (AnalysisWindow.mk' ref.sampleRate (0.25 : F) 0.08).hop := by
      rw [w1, w2, columnCount_eq]
    rw [hcol] at hcover
    have hnb0 : 0 < m.numBands := by
      have hv := st.vn
      unfold meanOpt at hv
      split at hv
      · cases hv
      · rename_i hne
        have := List.length_pos_iff.mpr hne
        have := (C05_shapes h).1
        omega
    have hlev : st.refM.Pw 12 := by
      have hno : NoInf (spectroMat m.numBands m.filterBank.minFreq ref (AnalysisWindow.mk' ref.sampleRate 0.25 0.08)) := by
        rw [hmf]
        refine spectroMat_noInf (tameBank h1k h1m (by omega) (by omega)) (m := 1) (by norm_num) (fun a ha => ?_) st.hsr st.hsize ?_
        · obtain ⟨x, h1, h2⟩ := hrs a ha
          exact ⟨x, h1, h2.trans (by norm_num)⟩
        · rw [w1]; unfold windowSamples; omega
      have hp := st.prep
      rw [st.minFreq1, hspec] at hp
      have hr0 : 0 < (spectroMat m.numBands m.filterBank.minFreq ref (AnalysisWindow.mk' ref.sampleRate (0.25 : F) 0.08)).nrows := by
        rw [spectroMat_nrows]; exact hnb0
      have hc0 : 0 < (spectroMat m.numBands m.filterBank.minFreq ref (AnalysisWindow.mk' ref.sampleRate (0.25 : F) 0.08)).ncols :=
        by show 0 < numColumns _ _ _; exact Nat.add_pos_left Nat.one_pos _
      obtain ⟨a, b, q1, q2, q3⟩ := prepare_pw (spectroMat_wf _ _ _ _) (spectroMat_wf _ _ _ _) hr0 hc0 hr0 hc0 hno hno
      rw [hp] at q1
      cases q1
      exact q2
    obtain ⟨t1, t2, t3⟩ := st.same_coarse_total hpc hsame hlev hnb hsw (by rw [s5]; exact hcover) hlen
    obtain ⟨g1, g2⟩ := C36_never_lower st.fine
    have hge := vnsim_ge h hpc hnb (by omega) (by omega) hf
    have hsum : (st.coarse.map fun q => number q.similarity).sum ≤ (res.patchSims.map fun q => number q.similarity).sum := by
      refine sum_le_sum_get (by rw [List.length_map, List.length_map, g1]) fun k x y hx hy => ?_
      rw [List.getElem?_map, Option.map_eq_some_iff] at hx hy
      obtain ⟨r, hr, rfl⟩ := hx
      obtain ⟨r', hr', rfl⟩ := hy
      obtain ⟨r'', hr'', ho⟩ := g2 k r hr
      rw [hr'] at hr''
      cases hr''
      rcases ho with rfl | ho
      · exact le_rfl
      · obtain ⟨x, hx⟩ := t1 r (List.mem_of_getElem? hr)
        obtain ⟨y, hy⟩ := (hf.patches r' (List.mem_of_getElem? hr')).1
        rw [number_of hx, number_of hy]
        rw [Is.lt hy hx] at ho
        exact not_lt.mp (by simpa using ho)
    unfold mean at hge
    rw [List.length_map, g1] at hge
    have hn0 : (0 : ℝ) < st.coarse.length := by exact_mod_cast st.coarse_ok.1
    have hq : (9895 / 10000 : ℝ) ≤ (res.patchSims.map fun q => number q.similarity).sum / st.coarse.length := by
      rw [le_div_iff₀ hn0, mul_comm]; exact t3.trans hsum
    generalize (res.patchSims.map fun q => number q.similarity).sum / st.coarse.length = A at *
    norm_num at *; linarith
  refine ⟨hv, fun s hs => ?_⟩
  obtain ⟨y, z, a1, a2, _, a4, a5⟩ := result_near hs hnb h hf.bands
  refine ⟨z, a2, ?_, a4⟩
  rw [number_of a1] at hv
  obtain ⟨c, hc, hce⟩ := lit_near (F := F) (m := 15) (e := 2) (x := 15 / 100) (by norm_num) (by norm_num) (by norm_num)
  have hc2 : c ≤ 1 / 2 := by
    have := (abs_le.mp hce).2
    norm_num at this; linarith
  rw [Is.lt a1 hc, decide_eq_false (by norm_num at *; linarith), if_neg (by simp)] at a5
  have k1 := (abs_le.mp a5).1
  have hm := fitMos_mono s hv
  have hexp : 284 / 100 ≤ Real.exp (46851153 / 10 ^ 7 * (989 / 1000 - 7655232 / 10 ^ 7)) := by
    obtain ⟨e1, _⟩ := fit_near_one (y := 1) (by norm_num)
    have e : Real.exp (46851153 / 10 ^ 7 * (989 / 1000 - 7655232 / 10 ^ 7)) = Real.exp (46851153 / 10 ^ 7 * (1 - 7655232 / 10 ^ 7)) *
        Real.exp (46851153 / 10 ^ 7 * (989 / 1000 - 1)) := by
      rw [← Real.exp_add]; congr 1; norm_num
    have hl := Real.add_one_le_exp (46851153 / 10 ^ 7 * (989 / 1000 - 1))
    rw [e]
    refine le_trans ?_ (mul_le_mul e1 hl (by norm_num) (Real.exp_pos _).le)
    norm_num
  unfold fitMos at hm k1
  generalize Real.exp (46851153 / 10 ^ 7 * (989 / 1000 - 7655232 / 10 ^ 7)) = E at *
  generalize Real.exp (46851153 / 10 ^ 7 * (y - 7655232 / 10 ^ 7)) = E' at *
  cases s
  · simp only [Bool.false_eq_true, if_false, mul_one] at *
    have h3 : (39959 / 10000 : ℝ) ≤ max 1 (min 5 (11559455 / 10 ^ 7 + E)) := le_max_of_le_right (le_min (by norm_num) (by norm_num; linarith))
    generalize max 1 (min 5 (11559455 / 10 ^ 7 + E)) = M at *
    linarith only [h3, hm, k1]
  · simp only [if_true] at *
    have h3 : (4801 / 1000 : ℝ) ≤ max 1 (min 5 ((11559455 / 10 ^ 7 + E) * (12031409 / 10 ^ 7))) :=
      le_max_of_le_right (le_min (by norm_num) (by norm_num; linarith))
    generalize max 1 (min 5 ((11559455 / 10 ^ 7 + E) * (12031409 / 10 ^ 7))) = M at *
    linarith only [h3, hm, k1]

/-- C11, floating point: comparing a signal with itself, when global alignment finds no delay, gives a `vnsim` of at least 0.989 and, in
wideband, a MOS of at least 3.99 (unscaled) or 4.8 (scaled). -/
theorem self_result_rounded {p : Profile} {m m' : Manager F} {ref : AudioSignal F} {res : SimilarityResult F} {lag : F}
    (h : m.computeResults p ref ref = .ok (m', res)) (hpc : m.patchCreator = .vad 30 ∨ m.patchCreator = .image 20) (hnb : m.numBands ≤ 32)
    (hmf : m.filterBank.minFreq = 50.0) (h1k : 1000 ≤ ref.sampleRate) (h1m : ref.sampleRate ≤ 1000000)
    (hrs : OrdinarySamples ref) (hl : SoundFrom 0 ref) (hsw : m.searchWindow ≤ 2 ^ 15)
    (hlen : ref.data.length + 30 * m.searchWindow < 2147483647)
    (hcover : columnCount ref.sampleRate ref.data.length ≤ m.searchWindow * m.patchCreator.patchSize + 1)
    (hlag : globallyAlign p ref ref = .ok (some (ref, lag))) (hf : FiniteScores res) :
    989 / 1000 ≤ number res.vnsim ∧
    ∀ s, m.mapper = .speech s → ∃ z, val res.moslqo = .fin z ∧ (if s then 48 / 10 else 399 / 100) ≤ z ∧ z ≤ 5 := by
  refine same_result_rounded h hpc hnb hmf h1k h1m hrs hsw hlen hcover hlag ?_ hf
  rw [scale_self (fun a ha => ?h1) (by omega) ?h2]
  case h2 =>
    obtain ⟨a, ha, x, h1, h2⟩ := hl
    exact ⟨a, by simpa using ha, x, h1, h2⟩
  case h1 =>
    obtain ⟨x, h1, h2⟩ := hrs a ha
    exact ⟨x, h1, h2.trans (by norm_num)⟩

end Visqol
