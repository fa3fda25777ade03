import Verif.Lemmas.NsimReal
import Verif.Lemmas.Spectro

/-! # Shapes of the matrices along the pipeline, and where reported patches come from -/

set_option linter.unusedSectionVars false

namespace Visqol
variable {F : Type} [Flt F]

theorem Mat.map_wf {f : F → F} {m : Mat F} (h : m.WF) : (m.map f).WF := by
  intro r hr
  obtain ⟨r', hr', rfl⟩ := List.mem_map.mp hr
  rw [List.length_map]; exact h r' hr'

@[simp] theorem Mat.map_nrows (f : F → F) (m : Mat F) : (m.map f).nrows = m.nrows := by simp [Mat.map, Mat.nrows]
@[simp] theorem Mat.map_ncols (f : F → F) (m : Mat F) : (m.map f).ncols = m.ncols := rfl

theorem sliceCols_ok {m m' : Mat F} {a b : Nat} (h : m.sliceCols a b = .ok m') :
    a ≤ b ∧ b ≤ m.ncols ∧ m'.nrows = m.nrows ∧ m'.ncols = b - a ∧ (m.WF → m'.WF) := by
  unfold Mat.sliceCols at h
  split at h
  · rename_i hc
    cases h
    refine ⟨hc.1, hc.2, by simp [Mat.nrows], rfl, ?_⟩
    intro wf r hr
    obtain ⟨r', hr', rfl⟩ := List.mem_map.mp hr
    have := wf r' hr'
    simp only [List.length_take, List.length_drop]; omega
  · cases h

theorem sliceCols_of_le {m : Mat F} {a b : Nat} (h1 : a ≤ b) (h2 : b ≤ m.ncols) : ∃ m', m.sliceCols a b = .ok m' := by
  unfold Mat.sliceCols; rw [if_pos ⟨h1, h2⟩]; exact ⟨_, rfl⟩

theorem appendZeroCols_shape (m : Mat F) (k : Nat) : (m.appendZeroCols k).nrows = m.nrows ∧ (m.appendZeroCols k).ncols = m.ncols + k ∧
    (m.WF → (m.appendZeroCols k).WF) := by
  refine ⟨by simp [Mat.appendZeroCols, Mat.nrows], rfl, ?_⟩
  intro wf r hr
  obtain ⟨r', hr', rfl⟩ := List.mem_map.mp hr
  have := wf r' hr'
  simp only [List.length_append, List.length_replicate, Mat.appendZeroCols]; omega

theorem applyFloors_shape {fl : List F} {m : Mat F} (hl : fl.length ≤ m.ncols) (wf : m.WF) :
    (applyFloors fl m).nrows = m.nrows ∧ (applyFloors fl m).ncols = m.ncols ∧ (applyFloors fl m).WF := by
  refine ⟨by simp [applyFloors, Mat.nrows], rfl, ?_⟩
  intro r hr
  obtain ⟨r', hr', rfl⟩ := List.mem_map.mp hr
  have := wf r' hr'
  simp only [List.length_append, List.length_zipWith, List.length_drop, applyFloors]; omega

theorem prepare_shape {a b a' b' : Mat F} (h : prepareSpectrograms a b = .ok (a', b')) (wa : a.WF) (wb : b.WF) :
    a'.WF ∧ b'.WF ∧ a'.nrows = a.nrows ∧ b'.nrows = b.nrows ∧ a'.ncols = a.ncols ∧ b'.ncols = b.ncols := by
  unfold prepareSpectrograms at h
  dsimp only at h
  obtain ⟨⟨x, y⟩, h1, h⟩ := bind_ok h
  obtain ⟨fa, _, h⟩ := bind_ok h
  obtain ⟨fb, _, h⟩ := bind_ok h
  cases h
  unfold raiseFloorPerFrame at h1
  obtain ⟨fl, hfl, h1⟩ := bind_ok h1
  cases h1
  have hl := mapE_ok_length hfl
  simp only [List.length_range] at hl
  have ca : (raiseFloor (convertToDb a) (-45.0)).ncols = a.ncols := rfl
  have cb : (raiseFloor (convertToDb b) (-45.0)).ncols = b.ncols := rfl
  have ha := applyFloors_shape (fl := fl) (m := raiseFloor (convertToDb a) (-45.0)) (by omega)
    (Mat.map_wf (Mat.map_wf wa))
  have hb := applyFloors_shape (fl := fl) (m := raiseFloor (convertToDb b) (-45.0)) (by omega)
    (Mat.map_wf (Mat.map_wf wb))
  refine ⟨Mat.map_wf ha.2.2, Mat.map_wf hb.2.2, ?_, ?_, rfl, rfl⟩
  · show (Mat.map _ _).nrows = _
    rw [Mat.map_nrows, ha.1]; simp [raiseFloor, convertToDb]
  · show (Mat.map _ _).nrows = _
    rw [Mat.map_nrows, hb.1]; simp [raiseFloor, convertToDb]

theorem createPatches_ok {n : Nat} {m : Mat F} {ix : List Nat} {ps : List (Mat F)} (h : createPatches n m ix = .ok ps)
    (wf : m.WF) : ps.length = ix.length ∧ ∀ q ∈ ps, q.WF ∧ q.nrows = m.nrows ∧ q.ncols = n := by
  refine ⟨mapE_ok_length h, fun q hq => ?_⟩
  obtain ⟨i, _, hi⟩ := mapE_ok_mem h hq
  obtain ⟨_, _, h3, h4, h5⟩ := sliceCols_ok hi
  exact ⟨h5 wf, h3, by omega⟩

theorem buildDegradedPatch_ok {m d : Mat F} {a n : Nat} (h : buildDegradedPatch m a n = .ok d) (wf : m.WF) :
    d.WF ∧ d.nrows = m.nrows ∧ d.ncols = n ∧ a ≤ m.ncols := by
  unfold buildDegradedPatch at h
  split at h
  · obtain ⟨q, hq, h⟩ := bind_ok h
    obtain ⟨h1, h2, h3, h4, h5⟩ := sliceCols_ok hq
    split at h
    · cases h
      obtain ⟨e1, e2, e3⟩ := appendZeroCols_shape q (a + n - m.ncols)
      exact ⟨e3 (h5 wf), by omega, by omega, by omega⟩
    · cases h
      exact ⟨h5 wf, h3, by omega, by omega⟩
  · cases h

theorem buildDegradedPatch_of_le {m : Mat F} {a n : Nat} (h1 : a ≤ m.ncols) (h2 : a + n < usizeMod) :
    ∃ d, buildDegradedPatch m a n = .ok d := by
  unfold buildDegradedPatch
  rw [if_pos h2]
  obtain ⟨q, hq⟩ := sliceCols_of_le (m := m) (a := a) (b := min (a + n) m.ncols) (by omega) (by omega)
  dsimp only
  rw [hq]
  simp only [ok_bind]
  split
  · exact ⟨_, rfl⟩
  · exact ⟨_, rfl⟩

theorem measure_of_shape (p : Profile) {a b : Mat F} (wa : a.WF) (wb : b.WF) (hs : a.SameShape b) (h1 : 0 < a.nrows)
    (h2 : 0 < a.ncols) : ∃ r, measurePatchSimilarity p a b = .ok r := ⟨_, measurePatchSimilarity_eq p a b wa wb hs h1 h2⟩

/-- A patch result whose scores come from one comparison of two matrices with `nb` rows, or that has been nulled. -/
structure FromMeasure (p : Profile) (nb : Nat) (r : PatchSim F) : Prop where
  out : ∃ a b n, a.WF ∧ b.WF ∧ a.nrows = nb ∧ b.nrows = nb ∧ measurePatchSimilarity p a b = .ok n ∧
    r.freqBandStddevs = n.freqBandStddevs ∧ r.freqBandDegEnergy = n.freqBandDegEnergy ∧
    ((r.freqBandMeans = n.freqBandMeans ∧ r.similarity = n.similarity) ∨
      (r.freqBandMeans = List.replicate n.freqBandMeans.length 0.0 ∧ r.similarity = 0.0))

theorem measure_lengths {p : Profile} {a b : Mat F} {n : PatchSim F} (wa : a.WF) (wb : b.WF)
    (h : measurePatchSimilarity p a b = .ok n) :
    n.freqBandMeans.length = a.nrows ∧ n.freqBandStddevs.length = a.nrows ∧ n.freqBandDegEnergy.length = a.nrows := by
  obtain ⟨hs, h1, h2⟩ := measure_ok_inv h
  rw [measurePatchSimilarity_eq p a b wa wb hs h1 h2] at h
  cases h
  have := hs.1
  refine ⟨?_, ?_, ?_⟩
  · simp [PatchSim.new, Mat.ofFn]
  · simp [PatchSim.new, Mat.ofFn]
  · simp only [PatchSim.new, List.length_map]; exact this.symm

theorem FromMeasure.lengths {p : Profile} {nb : Nat} {r : PatchSim F} (h : FromMeasure p nb r) :
    r.freqBandMeans.length = nb ∧ r.freqBandStddevs.length = nb ∧ r.freqBandDegEnergy.length = nb := by
  obtain ⟨a, b, n, wa, wb, ha, _, hm, h1, h2, h3⟩ := h.out
  obtain ⟨l1, l2, l3⟩ := measure_lengths wa wb hm
  refine ⟨?_, by rw [h1]; omega, by rw [h2]; omega⟩
  rcases h3 with h3 | h3
  · rw [h3.1]; omega
  · rw [h3.1, List.length_replicate]; omega

theorem backtraceStep_ok {p : Profile} {deg : Mat F} {fd pd : F} {rp : Mat F} {ri : Nat} {bt : List Nat} {o : Nat}
    {r : PatchSim F} {back : Nat} {nb : Nat} (h : backtraceStep p deg fd pd rp ri bt o = .ok (r, back))
    (wd : deg.WF) (wr : rp.WF) (hd : deg.nrows = nb) (hr : rp.nrows = nb) : FromMeasure p nb r := by
  unfold backtraceStep at h
  obtain ⟨d, h1, h⟩ := bind_ok h
  obtain ⟨n, h2, h⟩ := bind_ok h
  obtain ⟨b, h3, h⟩ := bind_ok h
  obtain ⟨e1, e2, e3, _⟩ := buildDegradedPatch_ok h1 wd
  dsimp only at h
  split at h <;> cases h
  · exact ⟨rp, d, n, wr, e1, hr, by omega, h2, rfl, rfl, .inr ⟨rfl, rfl⟩⟩
  · exact ⟨rp, d, n, wr, e1, hr, by omega, h2, rfl, rfl, .inl ⟨rfl, rfl⟩⟩

theorem backtrack_ok {p : Profile} {deg : Mat F} {fd pd : F} {nb : Nat} (wd : deg.WF) (hd : deg.nrows = nb) :
    ∀ (l : List (Mat F × Nat × List Nat)) (o : Nat) (rs : List (PatchSim F)),
      (∀ x ∈ l, x.1.WF ∧ x.1.nrows = nb) → backtrack p deg fd pd l o = .ok rs →
      rs.length = l.length ∧ ∀ r ∈ rs, FromMeasure p nb r
  | [], _, rs, _, h => by cases h; simp
  | (m, i, bt) :: l, o, rs, hl, h => by
    obtain ⟨⟨r, back⟩, h1, h⟩ := bind_ok h
    obtain ⟨rs', h2, h⟩ := bind_ok h
    cases h
    have hm := hl (m, i, bt) (by simp)
    obtain ⟨e1, e2⟩ := backtrack_ok wd hd l back rs' (fun x hx => hl x (by simp [hx])) h2
    refine ⟨by simp [e1], fun q hq => ?_⟩
    rcases List.mem_append.mp hq with hq | hq
    · exact e2 q hq
    · rw [List.mem_singleton.mp hq]; exact backtraceStep_ok h1 wd hm.1 hd hm.2

theorem calcMaxLoop_le {p : Profile} {ix : List Nat} {a b : Nat} : ∀ {k n : Nat},
    calcMaxNumPatchesLoop p ix a b k = .ok n → 1 ≤ n ∧ n ≤ k
  | 0, n, h => by unfold calcMaxNumPatchesLoop at h; cases p <;> cases h
  | k + 1, n, h => by
    obtain ⟨i, _, h⟩ := bind_ok h
    obtain ⟨d, _, h⟩ := bind_ok h
    split at h
    · have := calcMaxLoop_le h; omega
    · cases h; omega

theorem dpRows_length {p : Profile} {nc : Nat} {dps : List (Mat F)} {sw : Int} (l : List (Mat F × Nat)) :
    ∀ (prev : Option (Nat × List F)) (rows : List (List F × List Nat)),
      dpRows p nc dps sw prev l = .ok rows → rows.length = l.length := by
  induction l with
  | nil => intro prev rows h; cases h; rfl
  | cons x l ih =>
    intro prev rows h
    obtain ⟨m, i⟩ := x
    unfold dpRows at h
    obtain ⟨r, _, h⟩ := bind_ok h
    obtain ⟨rs, h2, h⟩ := bind_ok h
    cases h
    rw [List.length_cons, List.length_cons, ih _ _ h2]

/-- Coarse matching: at least one result, not more than patches, each from a comparison. -/
theorem find_ok {p : Profile} {rps : List (Mat F)} {ix : List Nat} {deg : Mat F} {fd : F} {radius : Int}
    {rs : List (PatchSim F)} {nb : Nat} (h : findMostOptimalDegPatches p rps ix deg fd radius = .ok rs)
    (hl : rps.length = ix.length) (wd : deg.WF) (hd : deg.nrows = nb) (hr : ∀ q ∈ rps, q.WF ∧ q.nrows = nb) :
    1 ≤ rs.length ∧ rs.length ≤ ix.length ∧ ∀ r ∈ rs, FromMeasure p nb r := by
  unfold findMostOptimalDegPatches at h
  obtain ⟨first, hf, h⟩ := bind_ok h
  obtain ⟨sw, _, h⟩ := bind_ok h
  obtain ⟨n, hn, h⟩ := bind_ok h
  split at h
  · cases h
  · rename_i hn0
    obtain ⟨dps, _, h⟩ := bind_ok h
    obtain ⟨rows, hrows, h⟩ := bind_ok h
    obtain ⟨li, _, h⟩ := bind_ok h
    obtain ⟨lo, _, h⟩ := bind_ok h
    obtain ⟨up, _, h⟩ := bind_ok h
    obtain ⟨up2, _, h⟩ := bind_ok h
    obtain ⟨lr, _, h⟩ := bind_ok h
    obtain ⟨best, _, h⟩ := bind_ok h
    have hrl := dpRows_length _ _ _ hrows
    obtain ⟨e1, e2⟩ := backtrack_ok wd hd _ _ _ (by
      intro x hx
      have hx := List.mem_reverse.mp hx
      have hx := List.mem_of_mem_take hx
      exact hr _ (List.of_mem_zip hx).1) h
    have hn' : n ≤ ix.length := by
      unfold calcMaxNumPatches at hn
      split at hn
      · cases hn; omega
      · exact (calcMaxLoop_le hn).2
    rw [List.length_reverse, List.length_take, List.length_zip, List.length_zip, List.length_map, hrl, List.length_zip] at e1
    exact ⟨by omega, by omega, e2⟩

/-- The deviations and energies of a coarse result are those of a comparison of its reference patch with some degraded patch, also when
the patch is reported as unmatched. -/
theorem backtrack_spread {p : Profile} {deg : Mat F} {fd pd : F} {P : List F → List F → Prop} :
    ∀ (l : List (Mat F × Nat × List Nat)) (o : Nat) (rs : List (PatchSim F)),
      (∀ x ∈ l, ∀ o d n, buildDegradedPatch deg o x.1.ncols = .ok d → measurePatchSimilarity p x.1 d = .ok n →
        P n.freqBandStddevs n.freqBandDegEnergy) → backtrack p deg fd pd l o = .ok rs →
      ∀ r ∈ rs, P r.freqBandStddevs r.freqBandDegEnergy
  | [], _, rs, _, h => by cases h; simp
  | (m, i, bt) :: l, o, rs, hl, h => by
    obtain ⟨⟨r, back⟩, h1, h⟩ := bind_ok h
    obtain ⟨rs', h2, h⟩ := bind_ok h
    cases h
    have e2 := backtrack_spread l back rs' (fun x hx => hl x (by simp [hx])) h2
    intro q hq
    rcases List.mem_append.mp hq with hq | hq
    · exact e2 q hq
    · rw [List.mem_singleton.mp hq]
      unfold backtraceStep at h1
      obtain ⟨d, g1, h1⟩ := bind_ok h1
      obtain ⟨n, g2, h1⟩ := bind_ok h1
      obtain ⟨b, _, h1⟩ := bind_ok h1
      have := hl (m, i, bt) (by simp) o d n g1 g2
      dsimp only at h1
      split at h1 <;> cases h1 <;> exact this

theorem find_spread {p : Profile} {rps : List (Mat F)} {ix : List Nat} {deg : Mat F} {fd : F} {radius : Int}
    {rs : List (PatchSim F)} {P : List F → List F → Prop} (h : findMostOptimalDegPatches p rps ix deg fd radius = .ok rs)
    (hr : ∀ q ∈ rps, ∀ o d n, buildDegradedPatch deg o q.ncols = .ok d → measurePatchSimilarity p q d = .ok n →
        P n.freqBandStddevs n.freqBandDegEnergy) : ∀ r ∈ rs, P r.freqBandStddevs r.freqBandDegEnergy := by
  unfold findMostOptimalDegPatches at h
  obtain ⟨first, hf, h⟩ := bind_ok h
  obtain ⟨sw, _, h⟩ := bind_ok h
  obtain ⟨n, hn, h⟩ := bind_ok h
  split at h
  · cases h
  · obtain ⟨dps, _, h⟩ := bind_ok h
    obtain ⟨rows, hrows, h⟩ := bind_ok h
    obtain ⟨li, _, h⟩ := bind_ok h
    obtain ⟨lo, _, h⟩ := bind_ok h
    obtain ⟨up, _, h⟩ := bind_ok h
    obtain ⟨up2, _, h⟩ := bind_ok h
    obtain ⟨lr, _, h⟩ := bind_ok h
    obtain ⟨best, _, h⟩ := bind_ok h
    refine backtrack_spread _ _ _ (fun x hx => ?_) h
    have hx := List.mem_reverse.mp hx
    have hx := List.mem_of_mem_take hx
    exact hr _ (List.of_mem_zip hx).1

variable [RustFft F]

theorem finelyAlignPatch_from {p : Profile} {nb : Nat} {ref deg : AudioSignal F} {w : AnalysisWindow F}
    {fb fb' : FilterBank F} {r r' : PatchSim F} (h : finelyAlignPatch p nb ref deg w fb r = .ok (fb', r'))
    (hr : FromMeasure p nb r) : FromMeasure p nb r' := by
  unfold finelyAlignPatch at h
  split at h
  · cases h; exact hr
  · obtain ⟨ra, _, h⟩ := bind_ok h
    obtain ⟨da, _, h⟩ := bind_ok h
    obtain ⟨o, _, h⟩ := bind_ok h
    cases o with
    | none => cases h
    | some t =>
      obtain ⟨⟨fb1, rs⟩, h1, h⟩ := bind_ok h
      obtain ⟨⟨fb2, ds⟩, h2, h⟩ := bind_ok h
      obtain ⟨⟨ma, mb⟩, h3, h⟩ := bind_ok h
      obtain ⟨n, h4, h⟩ := bind_ok h
      dsimp only at h h1 h2 h3 h4
      split at h
      · cases h; exact hr
      · cases h
        obtain ⟨_, _, _, e1, _⟩ := buildSpectrogram_ok h1
        obtain ⟨_, _, _, e2, _⟩ := buildSpectrogram_ok h2
        rw [e1, e2] at h3
        obtain ⟨s1, s2, s3, s4, _⟩ := prepare_shape h3 (spectroMat_wf _ _ _ _) (spectroMat_wf _ _ _ _)
        rw [spectroMat_nrows] at s3 s4
        exact ⟨ma, mb, n, s1, s2, s3, s4, h4, rfl, rfl, .inl ⟨rfl, rfl⟩⟩

/-- Fine alignment keeps the number of patches and their origin. -/
theorem finelyAlign_ok {p : Profile} {nb : Nat} {ref deg : AudioSignal F} {w : AnalysisWindow F} :
    ∀ {rs rs' : List (PatchSim F)} {fb fb' : FilterBank F}, finelyAlign p nb ref deg w fb rs = .ok (fb', rs') →
      (∀ r ∈ rs, FromMeasure p nb r) → rs'.length = rs.length ∧ ∀ r ∈ rs', FromMeasure p nb r
  | [], _, _, _, h, _ => by cases h; simp
  | r :: rs, _, _, _, h, hr => by
    obtain ⟨⟨f1, r1⟩, h1, h⟩ := bind_ok h
    obtain ⟨⟨f2, r2⟩, h2, h⟩ := bind_ok h
    cases h
    obtain ⟨e1, e2⟩ := finelyAlign_ok h2 (fun x hx => hr x (by simp [hx]))
    refine ⟨by simp only [List.length_cons]; omega, fun q hq => ?_⟩
    rcases List.mem_cons.mp hq with rfl | hq
    · exact finelyAlignPatch_from h1 (hr r (by simp))
    · exact e2 q hq

/-- Everything known about a successful comparison, stage by stage. -/
structure Stages (p : Profile) (nb : Nat) (fb : FilterBank F) (ref deg : AudioSignal F) (w : AnalysisWindow F)
    (pc : PatchCreator) (mapper : QualityMapper F) (sw : Nat) (res : SimilarityResult F) where
  refM : Mat F
  degM : Mat F
  ix : List Nat
  patches : List (Mat F)
  coarse : List (PatchSim F)
  fb1 : FilterBank F
  fb2 : FilterBank F
  fb3 : FilterBank F
  hsr : w.size ≤ ref.data.length
  hsd : w.size ≤ deg.data.length
  hhop : 0 < w.hop
  hsize : 0 < w.size
  prep : prepareSpectrograms (spectroMat nb fb.minFreq ref w) (spectroMat nb fb1.minFreq (scaleToMatchSpl ref deg) w) =
    .ok (refM, degM)
  minFreq1 : fb1.minFreq = fb.minFreq
  minFreq2 : fb2.minFreq = fb.minFreq
  sorted : sortFreqs (rawFreqs nb ref.sampleRate fb.minFreq) = .ok res.centerFreqBands
  ixs : pc.indices p refM.ncols ref w = .ok ix
  created : createPatches pc.patchSize refM ix = .ok patches
  found : findMostOptimalDegPatches p patches ix degM (Flt.ofNat w.size * w.overlap / Flt.ofNat ref.sampleRate) (wrapI32 sw) =
    .ok coarse
  fine : finelyAlign p nb ref (scaleToMatchSpl ref deg) w fb2 coarse = .ok (fb3, res.patchSims)
  fvn : perPatchMean PatchSim.freqBandMeans res.patchSims = .ok res.fvnsim
  fstd : perPatchStdDevs p res.patchSims (Flt.ofNat w.size * w.overlap / Flt.ofNat ref.sampleRate) = .ok res.fstdnsim
  fven : perPatchMean PatchSim.freqBandDegEnergy res.patchSims = .ok res.fvdegenergy
  mos : ∃ q, mapper.predict res.fvnsim = .ok q ∧ res.moslqo = alterForSimilarityExtremes res.vnsim q
  vn : meanOpt res.fvnsim = some res.vnsim

theorem calculateSimilarity_stages {p : Profile} {nb : Nat} {fb fb' : FilterBank F} {ref deg : AudioSignal F}
    {w : AnalysisWindow F} {pc : PatchCreator} {mapper : QualityMapper F} {sw : Nat} {res : SimilarityResult F}
    (h : calculateSimilarity p nb fb ref deg w pc mapper sw = .ok (fb', res)) :
    Nonempty (Stages p nb fb ref deg w pc mapper sw res) := by
  unfold calculateSimilarity at h
  dsimp only at h
  obtain ⟨⟨fb1, rs⟩, h1, h⟩ := bind_ok h
  obtain ⟨⟨fb2, ds⟩, h2, h⟩ := bind_ok h
  obtain ⟨⟨rm, dm⟩, h3, h⟩ := bind_ok h
  obtain ⟨ix, h4, h⟩ := bind_ok h
  obtain ⟨ps, h5, h⟩ := bind_ok h
  obtain ⟨co, h6, h⟩ := bind_ok h
  obtain ⟨⟨fb3, fi⟩, h7, h⟩ := bind_ok h
  obtain ⟨fvn, h8, h⟩ := bind_ok h
  obtain ⟨fstd, h9, h⟩ := bind_ok h
  obtain ⟨fven, h10, h⟩ := bind_ok h
  obtain ⟨mos, h11, h⟩ := bind_ok h
  obtain ⟨vn, h12, h⟩ := bind_ok h
  cases h
  dsimp only at h1 h2 h3 h4 h5 h6 h7 h8 h9 h10 h11 h12
  obtain ⟨a1, a2, a3, a4, a5⟩ := buildSpectrogram_ok h1
  obtain ⟨b1, _, _, b4, _⟩ := buildSpectrogram_ok h2
  rw [a4, b4] at h3
  have m1 := buildSpectrogram_minFreq h1
  have m2 := buildSpectrogram_minFreq h2
  refine ⟨⟨rm, dm, ix, ps, co, fb1, fb2, fb3, a1, ?_, a2, a3, h3, m1, m2.trans m1, a5, h4, h5, h6, h7, h8, h9, h10, ⟨mos, h11, rfl⟩,
    expect_ok h12⟩⟩
  simpa [scaleToMatchSpl] using b1

section
variable {p : Profile} {nb : Nat} {fb : FilterBank F} {ref deg : AudioSignal F} {w : AnalysisWindow F} {pc : PatchCreator}
  {mapper : QualityMapper F} {sw : Nat} {res : SimilarityResult F}

theorem Stages.shapes (st : Stages p nb fb ref deg w pc mapper sw res) :
    st.refM.WF ∧ st.degM.WF ∧ st.refM.nrows = nb ∧ st.degM.nrows = nb ∧
      st.refM.ncols = numColumns ref.data.length w.size w.hop ∧ st.degM.ncols = numColumns deg.data.length w.size w.hop := by
  obtain ⟨h1, h2, h3, h4, h5, h6⟩ := prepare_shape st.prep (spectroMat_wf _ _ _ _) (spectroMat_wf _ _ _ _)
  rw [spectroMat_nrows] at h3 h4
  refine ⟨h1, h2, h3, h4, h5, ?_⟩
  rw [h6]
  simp [spectroMat, scaleToMatchSpl]

theorem Stages.coarse_ok (st : Stages p nb fb ref deg w pc mapper sw res) :
    1 ≤ st.coarse.length ∧ st.coarse.length ≤ st.ix.length ∧ ∀ r ∈ st.coarse, FromMeasure p nb r := by
  obtain ⟨h1, h2, h3, h4, _, _⟩ := st.shapes
  obtain ⟨c1, c2⟩ := createPatches_ok st.created h1
  exact find_ok st.found c1 h2 h4 fun q hq => ⟨(c2 q hq).1, (c2 q hq).2.1.trans h3⟩

theorem Stages.patches_ok (st : Stages p nb fb ref deg w pc mapper sw res) :
    1 ≤ res.patchSims.length ∧ res.patchSims.length = st.coarse.length ∧ ∀ r ∈ res.patchSims, FromMeasure p nb r := by
  obtain ⟨h1, h2, h3⟩ := st.coarse_ok
  obtain ⟨h4, h5⟩ := finelyAlign_ok st.fine h3
  exact ⟨by omega, h4, h5⟩

end

theorem computeResults_stages {p : Profile} {m m' : Manager F} {ref deg : AudioSignal F} {res : SimilarityResult F}
    (h : m.computeResults p ref deg = .ok (m', res)) : ∃ aligned lag, globallyAlign p ref deg = .ok (some (aligned, lag)) ∧
      Nonempty (Stages p m.numBands m.filterBank ref aligned (AnalysisWindow.mk' ref.sampleRate 0.25 0.08) m.patchCreator
        m.mapper m.searchWindow res) := by
  unfold Manager.computeResults at h
  obtain ⟨o, h1, h⟩ := bind_ok h
  cases o with
  | none => cases h
  | some t =>
    obtain ⟨al, lag⟩ := t
    obtain ⟨⟨fb, r⟩, h2, h⟩ := bind_ok h
    cases h
    exact ⟨al, lag, h1, calculateSimilarity_stages h2⟩

theorem run_ok {p : Profile} {world : World F} {m m' : Manager F} {r d : String} {res : SimilarityResult F}
    (h : m.run p world r d = .ok (m', res)) : ∃ ref deg, loadAsMono (world.wav r) = .ok ref ∧
      loadAsMono (world.wav d) = .ok deg ∧ ref.sampleRate = deg.sampleRate ∧ m.computeResults p ref deg = .ok (m', res) := by
  unfold Manager.run at h
  obtain ⟨ref, h1, h⟩ := bind_ok h
  obtain ⟨deg, h2, h⟩ := bind_ok h
  obtain ⟨u, h3, h⟩ := bind_ok h
  refine ⟨ref, deg, h1, h2, ?_, h⟩
  unfold validateInputAudio at h3
  split at h3
  · cases h3
  · rename_i hh; simpa using hh

end Visqol
