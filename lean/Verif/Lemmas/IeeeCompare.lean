import Verif.Spec.Finite
import Verif.Lemmas.IeeePool
import Verif.Lemmas.IeeeScale
import Verif.Props.NoFailure
import Verif.Props.OptimalRounded

/-! # Floating point: a comparison of ordinary signals returns finite scores -/

set_option linter.unusedSectionVars false

namespace Visqol
open Ieee

variable {F : Type} [Flt F] [Ieee F]

theorem createPatches_pw {n k : ℕ} {m : Mat F} {ix : List Nat} {ps : List (Mat F)} (h : createPatches k m ix = .ok ps) (hm : m.Pw n) :
    ∀ q ∈ ps, q.Pw n := by
  intro q hq
  obtain ⟨i, _, hi⟩ := mapE_ok_mem h hq
  unfold Mat.sliceCols at hi
  split at hi
  · cases hi
    intro r hr a ha
    obtain ⟨r', hr', rfl⟩ := List.mem_map.mp hr
    exact hm r' hr' a (List.mem_of_mem_drop (List.mem_of_mem_take ha))
  · cases hi

theorem ieee_window_facts {sr : Nat} (h50 : 50 ≤ sr) (hsr : sr < 4294967296) :
    (AnalysisWindow.mk' (F := F) sr 0.25 0.08).size = windowSamples sr ∧
    (AnalysisWindow.mk' (F := F) sr 0.25 0.08).hop = windowSamples sr / 4 ∧ 4 ≤ windowSamples sr := by
  have h1 : (AnalysisWindow.mk' (F := F) sr 0.25 0.08).size = windowSamples sr := ieee_window hsr
  have h4 : 4 ≤ windowSamples sr ∧ windowSamples sr < 4294967296 := by unfold windowSamples; omega
  refine ⟨h1, ?_, h4.1⟩
  have : (AnalysisWindow.mk' (F := F) sr 0.25 0.08) = AnalysisWindow.mk (AnalysisWindow.mk' (F := F) sr 0.25 0.08).size (0.25 : F) := rfl
  rw [this, ieee_hop (by rw [h1]; omega), h1]

variable [RustFft F] [BoundedFft F] [Libm F]

/-- The conditions under which a comparison of `ref` with an (aligned) `deg` cannot fail in floating point. -/
structure OrdinaryRun (p : Profile) (sw nb : Nat) (mf : F) (pc : PatchCreator) (mapper : QualityMapper F) (ref : AudioSignal F) (deg : AudioSignal F)
    (w : AnalysisWindow F) (ix : List Nat) : Prop where
  creator : pc = .vad 30 ∨ pc = .image 20
  bands : 0 < nb
  bandsFew : nb ≤ 2 ^ 32
  rate : 0 < ref.sampleRate
  rateU32 : ref.sampleRate < 4294967296
  bank : TameBank nb ref.sampleRate mf
  freqs : FreqsOk nb ref.sampleRate mf
  hop : w.hop = w.size / 4
  long : 4 ≤ w.size
  short : w.size ≤ 2 ^ 17
  refLong : w.size ≤ ref.data.length
  degLong : w.size ≤ deg.data.length
  small : ref.data.length + deg.data.length + 30 * sw < 2147483647
  refSamples : ∀ a ∈ ref.data, Pw 1 a
  degSamples : ∀ a ∈ deg.data, Pw 1 a
  loud : ∃ a ∈ deg.data, ∃ v, Is a v ∧ 1 / 2 ^ 40 ≤ |v|
  patches : pc.indices p (numColumns ref.data.length w.size w.hop) ref w = .ok ix
  usable : ∃ i ∈ ix, pc.patchSize / 2 ≤ i ∧ i ≤ numColumns deg.data.length w.size w.hop + pc.patchSize / 2
  reach : ∀ i ∈ ix, i ≤ numColumns deg.data.length w.size w.hop + sw * pc.patchSize
  refDrift : numColumns ref.data.length w.size w.hop * (w.size % 4) ≤ 4 * w.size
  degDrift : numColumns deg.data.length w.size w.hop * (w.size % 4) ≤ 4 * w.size
  mapping : ∀ v : List F, v.length = nb → (∀ a ∈ v, Pw 18 a) → ∃ q, mapper.predict v = .ok q ∧ val q ≠ .nan

theorem calculateSimilarity_total' {p : Profile} {nb sw : Nat} {fb : FilterBank F} {ref deg : AudioSignal F} {pc : PatchCreator}
    {mapper : QualityMapper F} {ix : List Nat} (hsr : ref.sampleRate = deg.sampleRate) {w : AnalysisWindow F} (hov : w.overlap = 0.25)
    (hc : OrdinaryRun p sw nb fb.minFreq pc mapper ref deg w ix) :
    ∃ fb' res, calculateSimilarity p nb fb ref deg w pc mapper sw = .ok (fb', res) ∧ FiniteScores res := by
  obtain ⟨hpc, hnb, hnb2, h0, hu32, hbank, hfreq, hH, h4, h17, hr, hd, hsmall, hrp, hdp, hloud, hix, ⟨iu, hiu, hu1, hu2⟩, hreach, hdr, hdd,
    hmap⟩ := hc
  have hh : 0 < w.hop := by omega
  have hpp : 20 ≤ pc.patchSize ∧ pc.patchSize ≤ 30 := by rcases hpc with rfl | rfl <;> decide
  have hdl : (scaleToMatchSpl ref deg).data.length = deg.data.length := by show (List.map _ _).length = _; rw [List.length_map]
  have hdsr : (scaleToMatchSpl ref deg).sampleRate = deg.sampleRate := rfl
  have hsp := scale_pw hrp hdp (by omega) (by omega) (by intro h; rw [h] at hr; simp at hr; omega) hloud
  have hrp' : ∀ a ∈ ref.data, Pw 100 a := fun a ha => (hrp a ha).mono (by norm_num)
  unfold calculateSimilarity
  dsimp only
  generalize scaleToMatchSpl ref deg = sd at *
  have hsd : sd.sampleRate = ref.sampleRate := by omega
  obtain ⟨f1, s1, a1, a2, a3⟩ := buildSpectrogram_total' nb fb ref w hfreq hr hh (by omega)
  obtain ⟨f2, s2, b1, b2, b3⟩ := buildSpectrogram_total' nb f1 sd w (by rw [hsd, a3]; exact hfreq) (by omega) hh (by omega)
  rw [bind_of_ok a1, bind_of_ok b1]
  dsimp only
  rw [a2, b2]
  have wf1 := spectroMat_wf nb fb.minFreq ref w
  have wf2 := spectroMat_wf nb f1.minFreq sd w
  have n1 := spectroMat_nrows nb fb.minFreq ref w
  have n2 := spectroMat_nrows nb f1.minFreq sd w
  have m1 : (spectroMat nb fb.minFreq ref w).ncols = numColumns ref.data.length w.size w.hop := rfl
  have m2 : (spectroMat nb f1.minFreq sd w).ncols = numColumns deg.data.length w.size w.hop := by rw [← hdl]; rfl
  have hpos : ∀ len, 0 < numColumns len w.size w.hop := fun len => by
    unfold numColumns; exact Nat.lt_of_lt_of_le Nat.one_pos (Nat.le_add_right _ _)
  have p1 := hpos ref.data.length
  have p2 := hpos deg.data.length
  have i1 : NoInf (spectroMat nb fb.minFreq ref w) := spectroMat_noInf hbank (by norm_num) hrp' hr (by omega) h17
  have i2 : NoInf (spectroMat nb f1.minFreq sd w) := spectroMat_noInf (by rw [hsd, a3]; exact hbank) (by norm_num) hsp (by omega) (by omega) h17
  obtain ⟨rm, dm, d1, d2, d3⟩ := prepare_pw wf1 wf2 (by omega) (by omega) (by omega) (by omega) i1 i2
  have d4 := prepare_nn wf1 wf2 i1 i2 d1
  clear i1 i2
  obtain ⟨w1, w2, q1, q2, q3, q4⟩ := prepare_shape d1 wf1 wf2
  rw [bind_of_ok d1]
  dsimp only
  rw [n1] at q1
  rw [n2] at q2
  rw [m1] at q3
  rw [m2] at q4
  have hf2 : f2.minFreq = fb.minFreq := b3.trans a3
  clear a1 a2 b1 b2 d1 m1 m2 n1 n2 wf1 wf2
  rw [← q3] at hix hdr
  rw [← q4] at hu2 hreach hdd
  obtain ⟨c1, c2, ps, c3⟩ := creator_facts hpc hr hh (by omega) q3 (by omega) hix ⟨iu, hiu, hu1⟩
  rw [bind_of_ok hix, bind_of_ok c3, wrapI32_of_mem (by omega) (by omega)]
  obtain ⟨e1, e2⟩ := createPatches_ok c3 w1
  have e3 := createPatches_pw c3 d2
  have hcols1 := @numColumns_le ref.data.length w.size w.hop
  have hcols2 := @numColumns_le deg.data.length w.size w.hop
  have hmul : sw * pc.patchSize ≤ 30 * sw := by rw [Nat.mul_comm]; exact Nat.mul_le_mul_right _ hpp.2
  have hcast : ((sw : Int) * (pc.patchSize : Int)) = ((sw * pc.patchSize : Nat) : Int) := by push_cast; rfl
  have hixl : ix.length ≤ rm.ncols + 1 := by
    have hnd : ix.Nodup := c1.imp (fun h => Nat.ne_of_lt h)
    have hsub : ix.Subperm (List.range (rm.ncols + 1)) :=
      List.subperm_of_subset hnd fun i hi => List.mem_range.mpr (by have := c2 i hi; omega)
    simpa using hsub.length_le
  have he2 : ∀ q ∈ ps, q.WF ∧ q.nrows = nb ∧ q.ncols = pc.patchSize := fun q hq => ⟨(e2 q hq).1, (e2 q hq).2.1.trans q1, (e2 q hq).2.2⟩
  obtain ⟨coarse, hco⟩ := C34_no_panic_rounded p (nb := nb) (pp := pc.patchSize) (radius := (sw : Int)) (rps := ps) (ix := ix) (deg := dm)
    (fd := Flt.ofNat w.size * w.overlap / Flt.ofNat ref.sampleRate) (S := 2 ^ 600) e1
    he2 hnb (by omega) w2 q2 (by omega) (by omega) (by omega)
    (fun i hi => by have := c2 i hi; rw [hcast]; omega) (by omega) (by omega) c1 ⟨iu, hiu, hu1, hu2⟩
    (fun i hi => by have := hreach i hi; rw [hcast]; omega) (one_le_pow₀ (by norm_num)) (two_pow_mono (by norm_num))
    (similarities_within (n := 12) (by norm_num) he2 hnb (by omega) hnb2 (by omega) q2 e3 d3)
  rw [bind_of_ok hco]
  obtain ⟨cc, cc1, cc2, cc3, cc4, cc5⟩ := C32_in_order hco e1 (fun q hq => (e2 q hq).2.2) w2 (lt_usizeMod (by omega))
  obtain ⟨l1, l2, hfrom⟩ := find_ok hco e1 w2 q2 (fun q hq => ⟨(e2 q hq).1, (e2 q hq).2.1.trans q1⟩)
  have hspr : ∀ r ∈ coarse, SpreadPatch r :=
    find_spread (P := fun d e => (∀ a ∈ d, ∃ d, Is a d ∧ 0 ≤ d ∧ d ≤ 1092000) ∧ ∀ a ∈ e, ∃ x, Is a x ∧ 0 ≤ x ∧ x ≤ 4099) hco (fun m hm o d n g1 g2 => by
      obtain ⟨u1, u2, u3⟩ := he2 m hm
      have hd' := buildDegradedPatch_ok_window w2 g1
      obtain ⟨v1, v2, v3⟩ := window_wf dm o m.ncols
      rw [hd'] at g2
      exact measure_spread (e3 m hm) (d3.window o m.ncols) (d4.window o m.ncols) u1 v1 ⟨by omega, by omega⟩ (by omega) (by omega) (by omega) g2)
  rw [hov] at *
  generalize hfd : (Flt.ofNat w.size * 0.25 / Flt.ofNat ref.sampleRate : F) = fd at *
  obtain ⟨f3, fine, hfi, hft⟩ := finelyAlign_total' p (nb := nb) (w := w) (ref := ref) (deg := sd) (mf := fb.minFreq)
    (P := fun r => HasFrames fd r ∧ ScoredPatch r) coarse f2 hf2 (by
    intro r hrm fb' hfb'
    obtain ⟨k, hk⟩ := List.getElem?_of_mem hrm
    have hkl := (List.getElem?_eq_some_iff.mp hk).1
    obtain ⟨r', x, m, i, g1, g2, g3, g4, g5, g6, g7⟩ := cc5 k hkl
    rw [hk] at g1
    cases g1
    have hi' := c2 i (List.mem_of_getElem? g4)
    have hm := List.mem_of_getElem? g3
    have hbW : w.size ≤ 131072 := h17
    have hiin := column_inside hr hH (i := i) (by rw [← q3]; omega) (by rw [← q3]; exact hdr)
    have hbi : (i + pc.patchSize) * w.size ≤ 2 ^ 42 := by
      have : pc.patchSize * w.size ≤ 30 * 131072 := Nat.mul_le_mul hpp.2 hbW
      rw [Nat.add_mul]; omega
    cases x with
    | none =>
      have g5 : Unmatched r := g5
      refine ⟨fb', r, ?_, ⟨?_, ?_, ?_⟩, rfl⟩
      · unfold finelyAlignPatch
        rw [if_pos (by rw [g5.start, g5.stop]; simp [eq_val, val_0, Val.eq])]
      · unfold HasFrames
        rw [g6, g7]
        exact (coarse_frames (F := F) (i := i) h4 (by omega) h0 hu32 (by omega) hbi (by omega) (by omega) hfd.symm).1
      · rw [g5.similarity]; exact Pw.zero
      · refine ⟨fun a ha => ?_, hspr r hrm⟩
        rw [g5.means a ha]; exact ⟨0, val_0, by norm_num⟩
    | some o =>
      have g5 : MatchedAt p dm m fd (fd * Flt.ofNat pc.patchSize) o r := g5
      have ho : o < dm.ncols := cc4 o (List.mem_filterMap.mpr ⟨some o, List.mem_of_getElem? g2, rfl⟩)
      have hoin := column_inside hd hH (i := o) (by rw [← q4]; exact ho) (by rw [← q4]; exact hdd)
      have hbo : (o + pc.patchSize) * w.size ≤ 2 ^ 42 := by
        have : pc.patchSize * w.size ≤ 30 * 131072 := Nat.mul_le_mul hpp.2 hbW
        rw [Nat.add_mul]; omega
      have hsc : ScoredPatch r := by
        obtain ⟨nn, t1, t2, t3, _⟩ := g5.scores
        obtain ⟨v1, v2, v3⟩ := window_wf dm o m.ncols
        obtain ⟨u1, u2, u3⟩ := he2 m hm
        have := measure_pw (e3 m hm) (d3.window o m.ncols) (by norm_num) u1 v1 ⟨by omega, by omega⟩ (by omega) (by omega) (by omega)
          (by omega) t1
        have hmod := measure_moderate (e3 m hm) (d3.window o m.ncols) u1 v1 ⟨by omega, by omega⟩ (by omega) (by omega) (by omega) t1
        unfold ScoredPatch
        rw [t2, t3]
        exact ⟨this.1.mono (by norm_num), hmod, hspr r hrm⟩
      obtain ⟨fb'', r', y1, y2, y3, y4⟩ := finelyAlignPatch_total' p hnb hnb2 fb' hh hH.le h4 h17 (ref := ref) (deg := sd) hsd.symm h0 hu32 hrp' hsp
        le_rfl (by rw [hfb']; exact hbank) (by rw [hfb']; exact hfreq) (by omega) (by omega) (i := i) (o := o) hpp.1 hpp.2 hiin
        (by rw [hdl]; exact hoin) hbi hbo hfd.symm g6 g7 g5.start g5.stop hsc
      exact ⟨fb'', r', y1, ⟨y2, y3⟩, y4⟩)
  rw [bind_of_ok hfi]
  dsimp only
  obtain ⟨fl, hff⟩ := finelyAlign_ok hfi hfrom
  have hne : fine ≠ [] := by
    intro hn; rw [hn] at fl; simp at fl; omega
  have hlen : ∀ q ∈ fine, q.freqBandMeans.length = nb ∧ q.freqBandStddevs.length = nb ∧ q.freqBandDegEnergy.length = nb :=
    fun q hq => (hff q hq).lengths
  obtain ⟨v1, v2, v3⟩ := perPatchMean_total (sel := PatchSim.freqBandMeans) hne (fun q hq => (hlen q hq).1) (fun q hq => (hlen q hq).1)
  obtain ⟨u1, u2⟩ := perPatchStdDevs_total' p hne (fun q hq => ⟨(hlen q hq).1, (hlen q hq).2.1⟩) (fun q hq => (hft q hq).1)
  obtain ⟨x1, x2, x3⟩ := perPatchMean_total (sel := PatchSim.freqBandDegEnergy) hne (fun q hq => (hlen q hq).1) (fun q hq => (hlen q hq).2.2)
  have hvp := perPatchMean_pw v2 (fun q hq => (hft q hq).2.2.1) (by norm_num) (by norm_num) (by omega)
  replace hvp : ∀ a ∈ v1, Pw 18 a := fun a ha => by
    obtain ⟨t, ht, htb⟩ := hvp a ha
    exact ⟨t, ht, htb.trans (by norm_num)⟩
  obtain ⟨y, hy, hy'⟩ := hmap v1 v3 hvp
  rw [bind_of_ok v2, bind_of_ok u2, bind_of_ok x2, bind_of_ok hy]
  have hmean : ∃ mm, meanOpt v1 = some mm := by
    unfold meanOpt
    rw [if_neg (by intro hn; rw [hn] at v3; simp at v3; omega)]
    exact ⟨_, rfl⟩
  obtain ⟨mm, hmm⟩ := hmean
  have hmp := meanOpt_pw hmm hvp (by norm_num) (k := 32) (by omega) (by norm_num)
  rw [hmm]
  refine ⟨_, _, rfl, ?_, ?_, ?_, ?_, ?_, ?_⟩
  · dsimp only
    unfold alterForSimilarityExtremes
    by_cases hlt : Flt.lt mm 0.15 = true
    · rw [if_pos hlt]; exact ⟨1, val_1, le_rfl, by norm_num⟩
    · rw [if_neg hlt]
      rcases predict_val hy with h | h
      · exact absurd h hy'
      · exact h
  · obtain ⟨t, ht, _⟩ := hmp; exact ⟨t, ht⟩
  · intro a ha
    exact hvp a ha
  · intro q hq
    obtain ⟨_, ⟨t, ht, _⟩, hb, _⟩ := hft q hq
    refine ⟨⟨t, ht⟩, fun a ha => ?_⟩
    obtain ⟨t, ht, htb⟩ := hb a ha; exact ⟨t, ht, htb.trans (by norm_num)⟩
  · intro q hq a ha
    obtain ⟨t, ht, ht0, htb⟩ := (hft q hq).2.2.2.1 a ha
    exact ⟨t, ht, ht0, htb.trans (by norm_num)⟩
  · intro q hq a ha
    obtain ⟨t, ht, ht0, htb⟩ := (hft q hq).2.2.2.2 a ha
    exact ⟨t, ht, ht0, htb.trans (by norm_num)⟩

end Visqol
