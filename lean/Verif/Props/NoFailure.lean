import Verif.Lemmas.Total
import Verif.Spec.Columns

/-! # C63 and the second half of C11: comparisons that must succeed -/

set_option linter.unusedSectionVars false

namespace Visqol

theorem overlap_quarter (sr : Nat) : (AnalysisWindow.mk' (F := ℝ) sr 0.25 0.08).overlap = 1 / 4 := by
  show (Flt.toOfScientific.ofScientific 25 true 2 : ℝ) = _
  simp only [real_sci]; norm_num

/-- The start of a column that exists lies inside the signal, as long as the rounding of the hop does not add up to more than a
window. -/
theorem column_inside {len W H i : Nat} (hW : W ≤ len) (hH : H = W / 4) (hi : i < numColumns len W H)
    (hdrift : numColumns len W H * (W % 4) ≤ 4 * W) : i * W / 4 ≤ len := by
  unfold numColumns at hi
  have h1 : i * H ≤ len - W := (Nat.mul_le_mul_right H (by omega)).trans (Nat.div_mul_le_self _ _)
  have h2 : i * (W % 4) ≤ 4 * W := (Nat.mul_le_mul_right _ (by unfold numColumns; omega)).trans hdrift
  have h3 : i * W = 4 * (i * H) + i * (W % 4) := by
    conv_lhs => rw [← Nat.div_add_mod W 4, Nat.mul_add, ← hH]
    ring
  rw [h3]
  generalize i * H = A at *
  generalize i * (W % 4) = B at *
  omega

/-- The conditions under which a comparison of `ref` with an (aligned) `deg` cannot fail. -/
structure Comparable (p : Profile) (sw nb : Nat) (pc : PatchCreator) (mapper : QualityMapper ℝ) (ref : AudioSignal ℝ) (degLen : Nat)
    (w : AnalysisWindow ℝ) (ix : List Nat) : Prop where
  /-- one of the two patch creators -/
  creator : pc = .vad 30 ∨ pc = .image 20
  bands : 0 < nb
  rate : 0 < ref.sampleRate
  hop : 0 < w.hop
  refLong : w.size ≤ ref.data.length
  degLong : w.size ≤ degLen
  /-- all index arithmetic stays below `2^31` -/
  small : ref.data.length + degLen + 30 * sw < 2147483647
  /-- the patches of the reference -/
  patches : pc.indices p (numColumns ref.data.length w.size w.hop) ref w = .ok ix
  /-- a patch other than the first is near the degraded signal -/
  usable : ∃ i ∈ ix, pc.patchSize / 2 ≤ i ∧ i ≤ numColumns degLen w.size w.hop + pc.patchSize / 2
  /-- the search window of every patch touches the degraded signal -/
  reach : ∀ i ∈ ix, i ≤ numColumns degLen w.size w.hop + sw * pc.patchSize
  /-- the rounding of frame times does not add up to more than a window -/
  refDrift : numColumns ref.data.length w.size w.hop * (w.size % 4) ≤ 4 * w.size
  degDrift : numColumns degLen w.size w.hop * (w.size % 4) ≤ 4 * w.size
  /-- the mapper predicts something -/
  mapping : ∀ v : List ℝ, v.length = nb → ∃ q, mapper.predict v = .ok q

/-- Indices of either creator: increasing and with room for a patch; the patches can be cut out. -/
theorem creator_facts {F : Type} [Flt F] {p : Profile} {pc : PatchCreator} {ref : AudioSignal F} {w : AnalysisWindow F} {ix : List Nat} {m : Mat F}
    (hpc : pc = .vad 30 ∨ pc = .image 20) (hs : w.size ≤ ref.data.length) (hh : 0 < w.hop) (h0 : 0 < w.size)
    (hm : m.ncols = numColumns ref.data.length w.size w.hop) (hlen : ref.data.length < 9223372036854775808)
    (hix : pc.indices p m.ncols ref w = .ok ix) (husable : ∃ i ∈ ix, pc.patchSize / 2 ≤ i) :
    ix.Pairwise (· < ·) ∧ (∀ i ∈ ix, i + pc.patchSize ≤ m.ncols) ∧ ∃ ps, createPatches pc.patchSize m ix = .ok ps := by
  rcases hpc with rfl | rfl
  · by_cases h44 : m.ncols < 44
    · exfalso
      obtain ⟨i, hi, h15⟩ := husable
      have hix : vadPatchIndices p 30 m.ncols ref w = .ok ix := hix
      unfold vadPatchIndices at hix
      obtain ⟨norm, hnorm, hix⟩ := bind_ok hix
      rw [usub_of_le (by decide)] at hix
      simp only [ok_bind] at hix
      obtain ⟨av, hav, hix⟩ := bind_ok hix
      rw [if_neg (by decide)] at hix
      obtain ⟨vad, hvad, hix⟩ := bind_ok hix
      cases hix
      by_cases h14 : 14 ≤ m.ncols
      · rw [show (30 / 2 - 1 : Nat) = 14 from rfl, usub_of_le h14] at hav
        cases hav
        rw [show (m.ncols - 14) / 30 = 0 by omega, Nat.zero_mul] at hvad
        unfold voiceActivity at hvad
        obtain ⟨pt, hpt, hvad⟩ := bind_ok hvad
        cases hvad
        have hl := sliceM_ok_length hpt
        have hpt0 : pt = [] := List.eq_nil_of_length_eq_zero (by omega)
        subst hpt0
        have : (fullFrames w.hop (List.map (toPcm (F := F)) [])) = [] := by
          unfold fullFrames; rw [if_neg (by omega)]; simp [chunksOf]
        rw [this] at hi
        simp [vadResults, chunksIter, selectPatches] at hi
        simp [PatchCreator.patchSize] at h15
        omega
      · rw [show (30 / 2 - 1 : Nat) = 14 from rfl] at hav
        unfold usub at hav
        rw [if_neg h14] at hav
        cases p with
        | checked => cases hav
        | wrapping =>
          cases hav
          unfold voiceActivity at hvad
          obtain ⟨pt, hpt, _⟩ := bind_ok hvad
          obtain ⟨_, hle, _⟩ := sliceM_ok hpt
          have hnl := normalizeSignal_length hnorm
          have hbig : 9223372036854775808 ≤ (m.ncols + usizeMod - 14) / 30 * (30 * w.hop) := by
            have h1 : (m.ncols + usizeMod - 14) / 30 * 30 * 1 ≤ (m.ncols + usizeMod - 14) / 30 * 30 * w.hop :=
              Nat.mul_le_mul_left _ hh
            rw [← Nat.mul_assoc]
            refine le_trans ?_ h1
            unfold usizeMod
            omega
          omega
    · have h26 := C26_wideband p (m := m) hs hh h0 hm (by omega)
      cases hn : normalizeSignal ref.data with
      | error e => rw [(h26.2 e hn).2] at hix; cases hix
      | ok norm =>
        obtain ⟨ix', h1, h2, h3, _, h5⟩ := h26.1 norm hn
        rw [hix] at h1
        cases h1
        refine ⟨?_, h3, h5⟩
        apply List.Pairwise.sublist h2
        rw [List.pairwise_map]
        exact List.pairwise_lt_range.imp fun h => by omega
  · by_cases h30 : m.ncols < 30
    · rw [C25_too_small p h30] at hix; cases hix
    · obtain ⟨k, _, hk2, hk3, ps, hps, _⟩ := C25_tiling p (m := m) (by omega) ref w
      rw [hk2] at hix
      rw [← Except.ok.inj hix]
      refine ⟨?_, ?_, ps, hps⟩
      · rw [List.pairwise_map]
        exact List.pairwise_lt_range.imp fun h => by omega
      · intro i hi
        obtain ⟨j, hj, rfl⟩ := List.mem_map.mp hi
        have := (hk3 j).mp (List.mem_range.mp hj)
        show _ + 20 ≤ _
        omega

/-- A comparison meeting the conditions returns a result. -/
theorem calculateSimilarity_total {p : Profile} {nb sw : Nat} {fb : FilterBank ℝ} {ref deg : AudioSignal ℝ} {pc : PatchCreator}
    {mapper : QualityMapper ℝ} {ix : List Nat} (hsr : ref.sampleRate = deg.sampleRate)
    (hc : Comparable p sw nb pc mapper ref deg.data.length (AnalysisWindow.mk' ref.sampleRate 0.25 0.08) ix) :
    ∃ x, calculateSimilarity p nb fb ref deg (AnalysisWindow.mk' ref.sampleRate 0.25 0.08) pc mapper sw = .ok x := by
  have hov := overlap_quarter ref.sampleRate
  have hov' : (AnalysisWindow.mk' (F := ℝ) ref.sampleRate 0.25 0.08).overlap = 0.25 := rfl
  generalize AnalysisWindow.mk' (F := ℝ) ref.sampleRate 0.25 0.08 = w at *
  obtain ⟨hpc, hnb, h0, hh, hr, hd, hsmall, hix, ⟨iu, hiu, hu1, hu2⟩, hreach, hdr, hdd, hmap⟩ := hc
  have hH : w.hop = w.size / 4 := hop_quarter hov' (by omega)
  have h4 : 4 ≤ w.size := by omega
  have hpp : 20 ≤ pc.patchSize ∧ pc.patchSize ≤ 30 := by rcases hpc with rfl | rfl <;> decide
  have hdl : (scaleToMatchSpl ref deg).data.length = deg.data.length := by show (List.map _ _).length = _; rw [List.length_map]
  have hdsr : (scaleToMatchSpl ref deg).sampleRate = deg.sampleRate := rfl
  unfold calculateSimilarity
  dsimp only
  generalize scaleToMatchSpl ref deg = sd at *
  obtain ⟨f1, s1, a1, a2, _⟩ := buildSpectrogram_total nb fb ref w hr hh (by omega)
  obtain ⟨f2, s2, b1, b2, _⟩ := buildSpectrogram_total nb f1 sd w (by omega) hh (by omega)
  rw [bind_of_ok a1, bind_of_ok b1]
  dsimp only
  rw [a2, b2]
  have wf1 := spectroMat_wf nb fb.minFreq ref w
  have wf2 := spectroMat_wf nb f1.minFreq sd w
  have n1 := spectroMat_nrows nb fb.minFreq ref w
  have n2 := spectroMat_nrows nb f1.minFreq sd w
  have m1 : (spectroMat nb fb.minFreq ref w).ncols = numColumns ref.data.length w.size w.hop := rfl
  have m2 : (spectroMat nb f1.minFreq sd w).ncols = numColumns deg.data.length w.size w.hop := by rw [← hdl]; rfl
  have hpos : ∀ len, 0 < numColumns len w.size w.hop := fun len => by
    unfold numColumns; exact Nat.lt_of_lt_of_le Nat.one_pos (Nat.le_add_right _ _)
  have p1 := hpos ref.data.length
  have p2 := hpos deg.data.length
  obtain ⟨rm, dm, d1⟩ := C23_total wf1 wf2 (by omega) (by omega) (by omega) (by omega)
  obtain ⟨w1, w2, q1, q2, q3, q4⟩ := prepare_shape d1 wf1 wf2
  rw [bind_of_ok d1]
  dsimp only
  rw [n1] at q1
  rw [n2] at q2
  rw [m1] at q3
  rw [m2] at q4
  clear a1 a2 b1 b2 d1 m1 m2 n1 n2 wf1 wf2
  rw [← q3] at hix hdr
  rw [← q4] at hu2 hreach hdd
  obtain ⟨c1, c2, ps, c3⟩ := creator_facts hpc hr hh (by omega) q3 (by omega) hix ⟨iu, hiu, hu1⟩
  rw [bind_of_ok hix, bind_of_ok c3, wrapI32_of_mem (by omega) (by omega)]
  obtain ⟨e1, e2⟩ := createPatches_ok c3 w1
  have hcols1 := @numColumns_le ref.data.length w.size w.hop
  have hcols2 := @numColumns_le deg.data.length w.size w.hop
  have hmul : sw * pc.patchSize ≤ 30 * sw := by rw [Nat.mul_comm]; exact Nat.mul_le_mul_right _ hpp.2
  have hcast : ((sw : Int) * (pc.patchSize : Int)) = ((sw * pc.patchSize : Nat) : Int) := by push_cast; rfl
  have hixl : ix.length ≤ rm.ncols + 1 := by
    have hnd : ix.Nodup := c1.imp (fun h => Nat.ne_of_lt h)
    have hsub : ix.Subperm (List.range (rm.ncols + 1)) :=
      List.subperm_of_subset hnd fun i hi => List.mem_range.mpr (by have := c2 i hi; omega)
    simpa using hsub.length_le
  obtain ⟨coarse, hco⟩ := C34_no_panic p (nb := nb) (pp := pc.patchSize) (radius := (sw : Int)) (rps := ps) (ix := ix) (deg := dm)
    (fd := Flt.ofNat w.size * w.overlap / Flt.ofNat ref.sampleRate) e1
    (fun q hq => ⟨(e2 q hq).1, (e2 q hq).2.1.trans q1, (e2 q hq).2.2⟩) hnb (by omega) w2 q2 (by omega) (by omega) (by omega)
    (fun i hi => by have := c2 i hi; rw [hcast]; omega) (by omega) (by omega) c1 ⟨iu, hiu, hu1, hu2⟩
    (fun i hi => by have := hreach i hi; rw [hcast]; omega)
  rw [bind_of_ok hco]
  have hfd : (Flt.ofNat w.size * w.overlap / Flt.ofNat ref.sampleRate : ℝ) = (w.size : ℝ) / 4 / ref.sampleRate := by
    rw [hov]; simp only [real_ofNat]; ring
  have hfdpos : (0 : ℝ) < (w.size : ℝ) / 4 / ref.sampleRate := by
    have : (0 : ℝ) < w.size := by exact_mod_cast (show 0 < w.size by omega)
    have : (0 : ℝ) < ref.sampleRate := by exact_mod_cast h0
    positivity
  have hfdp : (0 : ℝ) < (w.size : ℝ) / 4 / ref.sampleRate * pc.patchSize := by
    have : (0 : ℝ) < (pc.patchSize : ℝ) := by exact_mod_cast (show 0 < pc.patchSize by omega)
    positivity
  have hct := C52_coarse_times hco e1 (fun q hq => (e2 q hq).2.2) w2 (lt_usizeMod (by omega))
  obtain ⟨l1, l2, hfrom⟩ := find_ok hco e1 w2 q2 (fun q hq => ⟨(e2 q hq).1, (e2 q hq).2.1.trans q1⟩)
  rw [hfd] at hct ⊢
  obtain ⟨f3, fine, hfi, hft⟩ := finelyAlign_total p (nb := nb) (w := w) (ref := ref) (deg := sd) coarse f2 (by
    intro r hrm fb
    obtain ⟨k, hk⟩ := List.getElem?_of_mem hrm
    obtain ⟨t1, ⟨i, hi, t2⟩, t3⟩ := hct k r hk
    have hi' := c2 i (List.mem_of_getElem? hi)
    rcases t3 with t3 | ⟨⟨o, ho, t4⟩, t5⟩
    · refine ⟨fb, r, ?_, ?_⟩
      · unfold finelyAlignPatch
        rw [if_pos (by rw [t3.start, t3.stop]; simp)]
      · rw [t1]; simp only [real_ofNat] at *; linarith
    · have hbW : w.size ≤ 1073741823 := by omega
      have hb1 : (i + pc.patchSize) * w.size ≤ 2147483648 * 1073741823 := Nat.mul_le_mul (by omega) hbW
      have hb2 : (o + pc.patchSize) * w.size ≤ 2147483690 * 1073741823 := Nat.mul_le_mul (by omega) hbW
      obtain ⟨fb', r', g1, g2, _⟩ := finelyAlignPatch_total p hnb fb hh h4 (ref := ref) (deg := sd) (hsr.trans hdsr.symm) h0
        (i := i) (o := o) hpp.1 (column_inside hr hH (by rw [← q3]; omega) (by rw [← q3]; exact hdr))
        (by rw [hdl]; exact column_inside hd hH (by rw [← q4]; exact ho) (by rw [← q4]; exact hdd)) (by omega) (by omega)
        (r := r) t2 t1 t4 (by rw [t5, t4]; rfl)
      exact ⟨fb', r', g1, g2⟩)
  rw [bind_of_ok hfi]
  dsimp only
  obtain ⟨fl, hff⟩ := finelyAlign_ok hfi hfrom
  have hne : fine ≠ [] := by
    intro hn; rw [hn] at fl; simp at fl; omega
  have hlen : ∀ q ∈ fine, q.freqBandMeans.length = nb ∧ q.freqBandStddevs.length = nb ∧ q.freqBandDegEnergy.length = nb :=
    fun q hq => (hff q hq).lengths
  obtain ⟨v1, v2, v3⟩ := perPatchMean_total (sel := PatchSim.freqBandMeans) hne (fun q hq => (hlen q hq).1) (fun q hq => (hlen q hq).1)
  obtain ⟨u1, u2⟩ := perPatchStdDevs_total p hne hfdpos (fun q hq => ⟨(hlen q hq).1, (hlen q hq).2.1⟩) hft
  obtain ⟨x1, x2, x3⟩ := perPatchMean_total (sel := PatchSim.freqBandDegEnergy) hne (fun q hq => (hlen q hq).1) (fun q hq => (hlen q hq).2.2)
  obtain ⟨y, hy⟩ := hmap v1 v3
  rw [bind_of_ok v2, bind_of_ok u2, bind_of_ok x2, bind_of_ok hy]
  unfold meanOpt
  rw [if_neg (by intro hn; rw [hn] at v3; simp at v3; omega)]
  exact ⟨_, rfl⟩

theorem window_facts {sr : Nat} (h50 : 50 ≤ sr) (hsr : sr < 4294967296) :
    (AnalysisWindow.mk' (F := ℝ) sr 0.25 0.08).size = windowSamples sr ∧
    (AnalysisWindow.mk' (F := ℝ) sr 0.25 0.08).hop = windowSamples sr / 4 ∧ 4 ≤ windowSamples sr := by
  have h1 : (AnalysisWindow.mk' (F := ℝ) sr 0.25 0.08).size = windowSamples sr := window_size sr (by omega)
  have h4 : 4 ≤ windowSamples sr ∧ windowSamples sr < 4294967296 := by unfold windowSamples; omega
  refine ⟨h1, ?_, h4.1⟩
  rw [hop_quarter rfl (by omega), h1]

theorem numColumns_mono {W H a b : Nat} (h : a ≤ b) : numColumns a W H ≤ numColumns b W H := by
  unfold numColumns
  exact Nat.add_le_add_left (Nat.div_le_div_right (by omega)) _

theorem columnCount_eq (sr len : Nat) : columnCount sr len = numColumns len (windowSamples sr) (windowSamples sr / 4) := by
  unfold columnCount numColumns; omega

/-- A comparison of whole signals returns a result when every possible alignment meets the conditions. -/
theorem computeResults_total (p : Profile) (m : Manager ℝ) {ref deg : AudioSignal ℝ} {ix : List Nat}
    (hsr : ref.sampleRate = deg.sampleRate) (hr : ref.data ≠ []) (h9 : 9 ≤ max ref.data.length deg.data.length)
    (hbig : max ref.data.length deg.data.length ≤ 2 ^ 62) (hhalf : ref.data.length / 2 < deg.data.length)
    (hc : ∀ al lag, globallyAlign p ref deg = .ok (some (al, lag)) → deg.data.length - ref.data.length / 2 ≤ al.data.length →
      al.data.length ≤ deg.data.length + ref.data.length / 2 →
      Comparable p m.searchWindow m.numBands m.patchCreator m.mapper ref al.data.length
        (AnalysisWindow.mk' ref.sampleRate 0.25 0.08) ix) :
    ∃ m' res, m.computeResults p ref deg = .ok (m', res) := by
  obtain ⟨al, t, h1, h2, h3⟩ := globallyAlign_total p hr (by intro h; rw [h] at hhalf; simp at hhalf) h9 hbig (by omega)
  obtain ⟨⟨fb, x⟩, hx⟩ := calculateSimilarity_total (fb := m.filterBank) (hsr.trans h2.symm) (hc al t h1 h3 (globallyAlign_length h1))
  refine ⟨{ m with filterBank := fb }, x, ?_⟩
  unfold Manager.computeResults
  rw [bind_of_ok h1]
  dsimp only
  rw [bind_of_ok hx]

/-- Any two signals of the same rate, given the patches of the reference. -/
theorem succeeds (p : Profile) (m : Manager ℝ) {ref deg : AudioSignal ℝ} {ix : List Nat}
    (hpc : m.patchCreator = .vad 30 ∨ m.patchCreator = .image 20) (hnb : 0 < m.numBands)
    (hmap : ∀ v : List ℝ, v.length = m.numBands → ∃ q, m.mapper.predict v = .ok q)
    (hsr : ref.sampleRate = deg.sampleRate) (h50 : 50 ≤ ref.sampleRate) (hu32 : ref.sampleRate < 4294967296)
    (h9 : 9 ≤ ref.data.length)
    (hsmall : 2 * (ref.data.length + deg.data.length) + 30 * m.searchWindow < 2147483647)
    (href : windowSamples ref.sampleRate ≤ ref.data.length)
    (hdeg : ref.data.length / 2 + windowSamples ref.sampleRate ≤ deg.data.length)
    (hd1 : SmallDrift ref.sampleRate ref.data.length)
    (hd2 : SmallDrift ref.sampleRate (deg.data.length + ref.data.length / 2))
    (hix : m.patchCreator.indices p (columnCount ref.sampleRate ref.data.length) ref
      (AnalysisWindow.mk' ref.sampleRate 0.25 0.08) = .ok ix)
    (huse : ∃ i ∈ ix, m.patchCreator.patchSize / 2 ≤ i ∧
      i ≤ columnCount ref.sampleRate (deg.data.length - ref.data.length / 2) + m.patchCreator.patchSize / 2)
    (hreach : ∀ i ∈ ix, i ≤ columnCount ref.sampleRate (deg.data.length - ref.data.length / 2) +
      m.searchWindow * m.patchCreator.patchSize) :
    ∃ m' res, m.computeResults p ref deg = .ok (m', res) := by
  obtain ⟨w1, w2, w3⟩ := window_facts h50 hu32
  apply computeResults_total p m hsr (by intro h; rw [h] at h9; simp at h9) (by omega) (by omega) (by omega)
  intro al t _ h3 h4
  have mono := numColumns_mono (W := windowSamples ref.sampleRate) (H := windowSamples ref.sampleRate / 4) h3
  have mono2 := numColumns_mono (W := windowSamples ref.sampleRate) (H := windowSamples ref.sampleRate / 4) h4
  unfold SmallDrift at hd1 hd2
  simp only [columnCount_eq] at *
  refine ⟨hpc, hnb, by omega, by omega, by omega, by omega, by omega, by rw [w1, w2]; exact hix, ?_, ?_,
    by rw [w1, w2]; exact hd1, ?_, hmap⟩
  · obtain ⟨i, hi, a, b⟩ := huse
    exact ⟨i, hi, a, by rw [w1, w2]; omega⟩
  · intro i hi
    have := hreach i hi
    rw [w1, w2]; omega
  · rw [w1, w2]
    exact (Nat.mul_le_mul_right _ mono2).trans hd2

theorem columnCount_le {sr len : Nat} (h50 : 50 ≤ sr) : columnCount sr len ≤ len + 1 := by
  have := Nat.div_le_self (len - windowSamples sr) (windowSamples sr / 4)
  unfold columnCount; omega

/-- The second patch of a fullband reference. -/
theorem image_second {F : Type} [Flt F] (p : Profile) {n : Nat} (h : 51 ≤ n) (ref : AudioSignal F) (w : AnalysisWindow F) :
    ∃ ix, (PatchCreator.image 20).indices p n ref w = .ok ix ∧ 29 ∈ ix ∧ ∀ i ∈ ix, i + 20 < n := by
  obtain ⟨k, _, h1, h2, _⟩ := C25_tiling p (m := (⟨n, []⟩ : Mat F)) (by show 30 ≤ n; omega) ref w
  refine ⟨_, h1, List.mem_map.mpr ⟨1, List.mem_range.mpr ((h2 1).mpr ?_), rfl⟩, ?_⟩
  · show 9 + 20 * 1 < max (n - 21) 10
    omega
  · intro i hi
    obtain ⟨j, hj, rfl⟩ := List.mem_map.mp hi
    have : 9 + 20 * j < max (n - 21) 10 := (h2 j).mp (List.mem_range.mp hj)
    omega

/-- A patch of a wideband reference with an active frame. -/
theorem vad_later {F : Type} [Flt F] (p : Profile) {ref : AudioSignal F} (w1 : (AnalysisWindow.mk' (F := F) ref.sampleRate 0.25 0.08).size = windowSamples ref.sampleRate)
    (w2 : (AnalysisWindow.mk' (F := F) ref.sampleRate 0.25 0.08).hop = windowSamples ref.sampleRate / 4) (w3 : 4 ≤ windowSamples ref.sampleRate)
    (hs : windowSamples ref.sampleRate ≤ ref.data.length) {norm : List F} (hn : normalizeSignal ref.data = .ok norm) {k : Nat}
    (hk : 14 + 30 * k + 30 ≤ columnCount ref.sampleRate ref.data.length) {f : Nat} (hf : 30 * k ≤ f ∧ f < 30 * k + 30)
    (ha : Active norm (windowSamples ref.sampleRate / 4) f) :
    ∃ ix, (PatchCreator.vad 30).indices p (columnCount ref.sampleRate ref.data.length) ref
      (AnalysisWindow.mk' ref.sampleRate 0.25 0.08) = .ok ix ∧ 14 + 30 * k ∈ ix ∧
      ∀ i ∈ ix, i + 30 ≤ columnCount ref.sampleRate ref.data.length := by
  have hc : 44 ≤ numColumns ref.data.length (AnalysisWindow.mk' (F := F) ref.sampleRate 0.25 0.08).size
      (AnalysisWindow.mk' (F := F) ref.sampleRate 0.25 0.08).hop := by
    rw [w1, w2, ← columnCount_eq]; omega
  obtain ⟨ix, h1, _, h3, _⟩ := (C26_wideband p (ref := ref) (w := AnalysisWindow.mk' ref.sampleRate 0.25 0.08)
    (m := (⟨numColumns ref.data.length (AnalysisWindow.mk' (F := F) ref.sampleRate 0.25 0.08).size
      (AnalysisWindow.mk' (F := F) ref.sampleRate 0.25 0.08).hop, []⟩ : Mat F)) (by omega) (by omega) (by omega) rfl hc).1 norm hn
  dsimp only at h1 h3
  have h4 := (C30_kept_iff p (by omega) (by omega) (by omega) hc hn h1 k).mpr
  rw [w1, w2, ← columnCount_eq] at h1 h3 h4
  exact ⟨ix, h1, h4 ⟨hk, f, hf.1, hf.2, ha⟩, h3⟩

/-- C63, fullband: the reference has at least 51 spectrogram columns (about 1.1 seconds); the degraded signal is longer than half
the reference by a window and by 19 columns; the search window covers what may be cut off by alignment. -/
theorem C63_fullband_succeeds (p : Profile) (m : Manager ℝ) {ref deg : AudioSignal ℝ}
    (hpc : m.patchCreator = .image 20) (hnb : 0 < m.numBands)
    (hmap : ∀ v : List ℝ, v.length = m.numBands → ∃ q, m.mapper.predict v = .ok q)
    (hsr : ref.sampleRate = deg.sampleRate) (h50 : 50 ≤ ref.sampleRate) (hu32 : ref.sampleRate < 4294967296)
    (hsmall : 2 * (ref.data.length + deg.data.length) + 30 * m.searchWindow < 2147483647)
    (hd1 : SmallDrift ref.sampleRate ref.data.length)
    (hd2 : SmallDrift ref.sampleRate (deg.data.length + ref.data.length / 2))
    (href : 51 ≤ columnCount ref.sampleRate ref.data.length)
    (hdeg : ref.data.length / 2 + windowSamples ref.sampleRate ≤ deg.data.length)
    (huse : 19 ≤ columnCount ref.sampleRate (deg.data.length - ref.data.length / 2))
    (hreach : columnCount ref.sampleRate ref.data.length ≤
      columnCount ref.sampleRate (deg.data.length - ref.data.length / 2) + m.searchWindow * 20 + 21) :
    ∃ m' res, m.computeResults p ref deg = .ok (m', res) := by
  have hle : 50 + windowSamples ref.sampleRate ≤ ref.data.length := by
    have := Nat.div_le_self (ref.data.length - windowSamples ref.sampleRate) (windowSamples ref.sampleRate / 4)
    unfold columnCount at href; omega
  obtain ⟨ix, h1, h2, h3⟩ := image_second p href ref (AnalysisWindow.mk' ref.sampleRate 0.25 0.08)
  refine succeeds p m (.inr hpc) hnb hmap hsr h50 hu32 (by omega) hsmall (by omega) hdeg hd1 hd2 (ix := ix) (by rw [hpc]; exact h1)
    ⟨29, h2, ?_, ?_⟩ ?_
  · rw [hpc]; decide
  · rw [hpc]; show 29 ≤ _ + 20 / 2; omega
  · intro i hi
    have := h3 i hi
    rw [hpc]; show i ≤ _ + m.searchWindow * 20; omega

/-- C63, wideband: some patch other than the first (number `k ≥ 1`) contains a frame judged active. -/
theorem C63_wideband_succeeds (p : Profile) (m : Manager ℝ) {ref deg : AudioSignal ℝ}
    (hpc : m.patchCreator = .vad 30) (hnb : 0 < m.numBands)
    (hmap : ∀ v : List ℝ, v.length = m.numBands → ∃ q, m.mapper.predict v = .ok q)
    (hsr : ref.sampleRate = deg.sampleRate) (h50 : 50 ≤ ref.sampleRate) (hu32 : ref.sampleRate < 4294967296)
    (hsmall : 2 * (ref.data.length + deg.data.length) + 30 * m.searchWindow < 2147483647)
    (hd1 : SmallDrift ref.sampleRate ref.data.length)
    (hd2 : SmallDrift ref.sampleRate (deg.data.length + ref.data.length / 2))
    {norm : List ℝ} (hn : normalizeSignal ref.data = .ok norm) {k f : Nat} (hk1 : 1 ≤ k)
    (hk : 14 + 30 * k + 30 ≤ columnCount ref.sampleRate ref.data.length) (hf : 30 * k ≤ f ∧ f < 30 * k + 30)
    (ha : Active norm (windowSamples ref.sampleRate / 4) f)
    (hdeg : ref.data.length / 2 + windowSamples ref.sampleRate ≤ deg.data.length)
    (huse : 14 + 30 * k ≤ columnCount ref.sampleRate (deg.data.length - ref.data.length / 2) + 15)
    (hreach : columnCount ref.sampleRate ref.data.length ≤
      columnCount ref.sampleRate (deg.data.length - ref.data.length / 2) + m.searchWindow * 30 + 30) :
    ∃ m' res, m.computeResults p ref deg = .ok (m', res) := by
  have hle : 50 + windowSamples ref.sampleRate ≤ ref.data.length := by
    have := Nat.div_le_self (ref.data.length - windowSamples ref.sampleRate) (windowSamples ref.sampleRate / 4)
    unfold columnCount at hk; omega
  obtain ⟨ix, h1, h2, h3⟩ := vad_later p (window_facts h50 hu32).1 (window_facts h50 hu32).2.1 (window_facts h50 hu32).2.2 (by omega) hn hk hf ha
  refine succeeds p m (.inl hpc) hnb hmap hsr h50 hu32 (by omega) hsmall (by omega) hdeg hd1 hd2 (ix := ix) (by rw [hpc]; exact h1)
    ⟨_, h2, ?_, ?_⟩ ?_
  · rw [hpc]; show 30 / 2 ≤ _; omega
  · rw [hpc]; show _ ≤ _ + 30 / 2; omega
  · intro i hi
    have := h3 i hi
    rw [hpc]; show i ≤ _ + m.searchWindow * 30; omega

/-- A comparison of a signal with itself, given its patches. -/
theorem self_succeeds (p : Profile) (m : Manager ℝ) {ref : AudioSignal ℝ} {ix : List Nat}
    (hpc : m.patchCreator = .vad 30 ∨ m.patchCreator = .image 20) (hnb : 0 < m.numBands)
    (hmap : ∀ v : List ℝ, v.length = m.numBands → ∃ q, m.mapper.predict v = .ok q)
    (h50 : 50 ≤ ref.sampleRate) (hu32 : ref.sampleRate < 4294967296)
    (h9 : 9 ≤ ref.data.length) (hsmall : 2 * ref.data.length + 30 * m.searchWindow < 2147483647)
    (href : windowSamples ref.sampleRate ≤ ref.data.length) (hd1 : SmallDrift ref.sampleRate ref.data.length)
    (hix : m.patchCreator.indices p (columnCount ref.sampleRate ref.data.length) ref
      (AnalysisWindow.mk' ref.sampleRate 0.25 0.08) = .ok ix)
    (huse : ∃ i ∈ ix, m.patchCreator.patchSize / 2 ≤ i)
    (hin : ∀ i ∈ ix, i ≤ columnCount ref.sampleRate ref.data.length) :
    ∃ m' res, m.computeResults p ref ref = .ok (m', res) := by
  obtain ⟨w1, w2, w3⟩ := window_facts h50 hu32
  apply computeResults_total p m rfl (by intro h; rw [h] at h9; simp at h9) (by omega) (by omega) (by omega)
  intro al t h0 h3 h4
  rw [globallyAlign_self p h9 (by omega)] at h0
  cases h0
  unfold SmallDrift at hd1
  simp only [columnCount_eq] at *
  refine ⟨hpc, hnb, by omega, by omega, by omega, by omega, by omega, by rw [w1, w2]; exact hix, ?_, ?_,
    by rw [w1, w2]; exact hd1, by rw [w1, w2]; exact hd1, hmap⟩
  · obtain ⟨i, hi, a⟩ := huse
    have := hin i hi
    exact ⟨i, hi, a, by rw [w1, w2]; omega⟩
  · intro i hi
    have := hin i hi
    rw [w1, w2]; exact this.trans (Nat.le_add_right _ _)

/-- C11, second half, fullband: a comparison of a signal with itself returns a result whenever the signal has at least 51
spectrogram columns (two patches) and the drift of the frame times stays below a window, whatever the search window. -/
theorem C11_fullband_succeeds (p : Profile) (m : Manager ℝ) {ref : AudioSignal ℝ}
    (hpc : m.patchCreator = .image 20) (hnb : 0 < m.numBands)
    (hmap : ∀ v : List ℝ, v.length = m.numBands → ∃ q, m.mapper.predict v = .ok q)
    (h50 : 50 ≤ ref.sampleRate) (hu32 : ref.sampleRate < 4294967296)
    (hsmall : 2 * ref.data.length + 30 * m.searchWindow < 2147483647)
    (hd : SmallDrift ref.sampleRate ref.data.length)
    (href : 51 ≤ columnCount ref.sampleRate ref.data.length) :
    ∃ m' res, m.computeResults p ref ref = .ok (m', res) := by
  have hle : 50 + windowSamples ref.sampleRate ≤ ref.data.length := by
    have := Nat.div_le_self (ref.data.length - windowSamples ref.sampleRate) (windowSamples ref.sampleRate / 4)
    unfold columnCount at href; omega
  obtain ⟨ix, h1, h2, h3⟩ := image_second p href ref (AnalysisWindow.mk' ref.sampleRate 0.25 0.08)
  refine self_succeeds p m (.inr hpc) hnb hmap h50 hu32 (by omega) hsmall (by omega) hd (ix := ix) (by rw [hpc]; exact h1)
    ⟨29, h2, ?_⟩ ?_
  · rw [hpc]; decide
  · intro i hi
    have := h3 i hi
    omega

/-- C11, second half, wideband: whenever some patch other than the first contains a frame judged active. -/
theorem C11_wideband_succeeds (p : Profile) (m : Manager ℝ) {ref : AudioSignal ℝ}
    (hpc : m.patchCreator = .vad 30) (hnb : 0 < m.numBands)
    (hmap : ∀ v : List ℝ, v.length = m.numBands → ∃ q, m.mapper.predict v = .ok q)
    (h50 : 50 ≤ ref.sampleRate) (hu32 : ref.sampleRate < 4294967296)
    (hsmall : 2 * ref.data.length + 30 * m.searchWindow < 2147483647)
    (hd : SmallDrift ref.sampleRate ref.data.length)
    {norm : List ℝ} (hn : normalizeSignal ref.data = .ok norm) {k f : Nat} (hk1 : 1 ≤ k)
    (hk : 14 + 30 * k + 30 ≤ columnCount ref.sampleRate ref.data.length) (hf : 30 * k ≤ f ∧ f < 30 * k + 30)
    (ha : Active norm (windowSamples ref.sampleRate / 4) f) :
    ∃ m' res, m.computeResults p ref ref = .ok (m', res) := by
  have hle : 50 + windowSamples ref.sampleRate ≤ ref.data.length := by
    have := Nat.div_le_self (ref.data.length - windowSamples ref.sampleRate) (windowSamples ref.sampleRate / 4)
    unfold columnCount at hk; omega
  obtain ⟨ix, h1, h2, h3⟩ := vad_later p (window_facts h50 hu32).1 (window_facts h50 hu32).2.1 (window_facts h50 hu32).2.2 (by omega) hn hk hf ha
  refine self_succeeds p m (.inl hpc) hnb hmap h50 hu32 (by omega) hsmall (by omega) hd (ix := ix) (by rw [hpc]; exact h1)
    ⟨_, h2, ?_⟩ ?_
  · rw [hpc]; show 30 / 2 ≤ _; omega
  · intro i hi
    have := h3 i hi
    omega

end Visqol
