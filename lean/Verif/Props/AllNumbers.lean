import Verif.Spec.Numbers
import Verif.Props.BuildsRelease
import Verif.Props.LoadingIeee
import Verif.Props.FilterIeee

/-! # Every number of the result is a number: C88 -/

set_option linter.unusedSectionVars false

namespace Visqol
open Ieee

variable {F : Type} [Flt F] [Ieee F] [Libm F]

/-- One patch: the sums of squares grow by at most two terms. -/
theorem stdContribution_bd {p : Profile} {fd : F} {st st' : List F × Nat} {q : PatchSim F} {k : ℕ} (h : stdContribution p fd st q = .ok st')
    (hd : ∀ a ∈ q.freqBandStddevs, Pw 21 a) (hm : ∀ a ∈ q.freqBandMeans, Pw 18 a)
    (hc : 1 ≤ Flt.toUsize (Flt.ceil ((q.refEnd - q.refStart) / fd)) ∧ Flt.toUsize (Flt.ceil ((q.refEnd - q.refStart) / fd)) ≤ 1024)
    (hk : k + 2 ≤ 2 ^ 50) (h1 : ∀ a ∈ st.1, Bd (grow (2 ^ 60) k) a) :
    (∀ a ∈ st'.1, Bd (grow (2 ^ 60) (k + 2)) a) ∧ st'.2 = st.2 + Flt.toUsize (Flt.ceil ((q.refEnd - q.refStart) / fd)) := by
  unfold stdContribution at h
  dsimp only at h
  generalize Flt.toUsize (Flt.ceil ((q.refEnd - q.refStart) / fd)) = n at *
  obtain ⟨c, h2, h⟩ := bind_ok h
  cases h
  refine ⟨fun a ha => ?_, rfl⟩
  obtain ⟨⟨x, i⟩, hx, hf⟩ := mapE_ok_mem h2 ha
  dsimp only at hf
  obtain ⟨dev, d1, hf⟩ := bind_ok hf
  obtain ⟨mean, m1, hf⟩ := bind_ok hf
  obtain ⟨fm, u1, hf⟩ := bind_ok hf
  cases hf
  rw [usub_of_le hc.1] at u1
  cases u1
  have hd' := hd _ (List.mem_of_getElem? (idx_ok d1))
  have hm' := hm _ (List.mem_of_getElem? (idx_ok m1))
  have e1 := ((Pw.nat (F := F) (k := n - 1) (n := 10) (by omega) (by norm_num)).mul hd' (by norm_num)).mul hd' (by norm_num)
  have e2 := ((Pw.nat (F := F) (k := n) (n := 10) (by omega) (by norm_num)).mul hm' (by norm_num)).mul hm' (by norm_num)
  obtain ⟨y1, i1, b1⟩ := e1.mono (show _ ≤ 60 by norm_num)
  obtain ⟨y2, i2, b2⟩ := e2.mono (show _ ≤ 60 by norm_num)
  obtain ⟨x0, i0, b0⟩ := h1 x (List.fst_mem_of_mem_zipIdx hx)
  have hS1 : (1 : ℝ) ≤ 2 ^ 60 := one_le_pow₀ (by norm_num)
  have hS2 : (2 : ℝ) ^ 60 ≤ 2 ^ 900 := two_pow_mono (by norm_num)
  obtain ⟨z1, r1, c1⟩ := grow_step (F := F) hS1 hS2 (by omega) b0 b1
  obtain ⟨z2, r2, c2⟩ := grow_step (F := F) hS1 hS2 (by omega) c1 b2
  exact ⟨z2, (Is.add ((Is.add i0 i1).trans r1) i2).trans r2, c2⟩

/-- All patches: the sums are bounded, and the frame counts add up. -/
theorem stdFold_bd {p : Profile} {fd : F} : ∀ {ps : List (PatchSim F)} {st st' : List F × Nat} (k : ℕ),
    foldE (stdContribution p fd) st ps = .ok st' →
    (∀ q ∈ ps, (∀ a ∈ q.freqBandStddevs, Pw 21 a) ∧ (∀ a ∈ q.freqBandMeans, Pw 18 a) ∧
      2 ≤ Flt.toUsize (Flt.ceil ((q.refEnd - q.refStart) / fd)) ∧ Flt.toUsize (Flt.ceil ((q.refEnd - q.refStart) / fd)) ≤ 1024) →
    k + 2 * ps.length ≤ 2 ^ 50 → (∀ a ∈ st.1, Bd (grow (2 ^ 60) k) a) →
    (∀ a ∈ st'.1, Bd (grow (2 ^ 60) (k + 2 * ps.length)) a) ∧ st.2 + 2 * ps.length ≤ st'.2 ∧ st'.2 ≤ st.2 + 1024 * ps.length
  | [], st, st', k, h, _, _, ha => by cases h; simpa using ha
  | q :: ps, st, st', k, h, hq, hk, ha => by
    rw [List.length_cons] at hk ⊢
    obtain ⟨s1, h1, h⟩ := bind_ok h
    obtain ⟨g1, g2, g3, g4⟩ := hq q (by simp)
    obtain ⟨b1, b2⟩ := stdContribution_bd h1 g1 g2 ⟨by omega, g4⟩ (by omega) ha
    obtain ⟨c1, c2, c3⟩ := stdFold_bd (k + 2) h (fun q' hq' => hq q' (by simp [hq'])) (by omega) b1
    rw [show k + 2 * (ps.length + 1) = k + 2 + 2 * ps.length by omega]
    exact ⟨c1, by omega, by omega⟩

/-- The pooled deviations are numbers and not negative: at least two frames are counted, so the division is not by zero. -/
theorem perPatchStdDevs_fin {p : Profile} {fd : F} {ps : List (PatchSim F)} {v : List F} (h : perPatchStdDevs p ps fd = .ok v)
    (hq : ∀ q ∈ ps, (∀ a ∈ q.freqBandStddevs, Pw 21 a) ∧ (∀ a ∈ q.freqBandMeans, Pw 18 a) ∧
      2 ≤ Flt.toUsize (Flt.ceil ((q.refEnd - q.refStart) / fd)) ∧ Flt.toUsize (Flt.ceil ((q.refEnd - q.refStart) / fd)) ≤ 1024)
    (hl : ps.length ≤ 2 ^ 32) : ∀ a ∈ v, ∃ x, val a = .fin x ∧ 0 ≤ x := by
  unfold perPatchStdDevs at h
  obtain ⟨f, h1, h⟩ := bind_ok h
  obtain ⟨q0, h2, h⟩ := bind_ok h
  obtain ⟨⟨c, total⟩, h3, h⟩ := bind_ok h
  cases h
  have hp : 0 < ps.length := (List.getElem?_eq_some_iff.mp (idx_ok h2)).1
  obtain ⟨g1, g2, g3⟩ := stdFold_bd 0 h3 hq (by omega) (by
    intro a ha
    rw [List.eq_of_mem_replicate ha]
    exact ⟨0, val_0, by simp [grow]⟩)
  dsimp only at g1 g2 g3
  have hfb := perPatchMean_pw h1 (S := 2 ^ 18) (fun q hqm => (hq q hqm).2.1) (by norm_num) (by norm_num) hl
  have ht2 : total ≤ 2 ^ 42 := by omega
  have ht1 : 2 ≤ total := by omega
  intro a ha
  obtain ⟨e, he, rfl⟩ := List.mem_map.mp ha
  have hee : Pw 150 e := by
    rw [List.mem_iff_getElem] at he
    obtain ⟨i, hi, rfl⟩ := he
    rw [List.getElem_zipWith]
    rw [List.length_zipWith] at hi
    obtain ⟨x, i1, b1⟩ := g1 (c[i]'(by omega)) (List.getElem_mem _)
    obtain ⟨y, i2, b2⟩ := hfb (f[i]'(by omega)) (List.getElem_mem _)
    have k1 : Pw 100 (c[i]'(by omega)) := by
      refine ⟨x, i1, b1.trans ((grow_le (by positivity) (by omega)).trans ?_)⟩
      have : ((0 + 2 * ps.length : ℕ) : ℝ) ≤ 2 ^ 33 := by
        have : 0 + 2 * ps.length ≤ 2 ^ 33 := by omega
        exact_mod_cast this
      calc (2 : ℝ) * ((0 + 2 * ps.length : ℕ) : ℝ) * 2 ^ 60 ≤ 2 * 2 ^ 33 * 2 ^ 60 := by gcongr
        _ ≤ 2 ^ 100 := by norm_num
    have k2 : Pw 19 (f[i]'(by omega)) := ⟨y, i2, b2.trans (by norm_num)⟩
    have k3 := ((k2.mul k2 (by norm_num)).mul (Pw.nat (F := F) (k := total) (n := 42) ht2 (by norm_num)) (by norm_num)).mono (show _ ≤ 100 by norm_num)
    have k4 := k1.sub k3 (by norm_num)
    have ht : Is (Flt.ofNat total : F) total := val_nat (ht2.trans (by norm_num))
    have k5 : Is (Flt.ofNat total - (1.0 : F)) ((total - 1 : ℕ) : ℝ) := by
      rw [Is, ht.sub val_1]
      have := rnd_nat F (n := total - 1) (by omega)
      rw [← this]
      congr 1
      push_cast [show 1 ≤ total by omega]
      ring
    refine (k4.div (n := 0) k5 ?_ (by norm_num)).mono (by norm_num)
    rw [abs_of_nonneg (by positivity), pow_zero, div_one]
    exact_mod_cast (by omega : 1 ≤ total - 1)
  obtain ⟨x, hx, hx2⟩ := hee
  rw [hx.lt val_0]
  by_cases h0 : x < 0
  · rw [decide_eq_true h0, if_pos rfl]
    exact ⟨0, val_0, le_rfl⟩
  · rw [decide_eq_false h0, if_neg (by simp)]
    have h0' := not_lt.mp h0
    obtain ⟨y, hy, _⟩ := Pw.sqrt hx h0' hx2 (by norm_num)
    exact ⟨y, hy, rnd_nonneg (F := F) ((hx.sqrt h0').symm.trans hy) (Real.sqrt_nonneg x)⟩

/-- Adding numbers that are not negative. -/
theorem foldBands_nonneg {sel : PatchSim F → List F} {S : ℝ} (hS1 : 1 ≤ S) (hS2 : S ≤ 2 ^ 900) :
    ∀ {ps : List (PatchSim F)} {acc r : List F} (k : ℕ), foldE (fun acc q => addBands acc (sel q)) acc ps = .ok r →
    (∀ a ∈ acc, ∃ x, Is a x ∧ 0 ≤ x ∧ x ≤ grow S k) → (∀ q ∈ ps, ∀ a ∈ sel q, ∃ x, Is a x ∧ 0 ≤ x ∧ x ≤ S) →
    k + ps.length ≤ 2 ^ 50 → ∀ a ∈ r, ∃ x, Is a x ∧ 0 ≤ x
  | [], acc, r, k, h, ha, _, _ => by
    cases h
    exact fun a h => (ha a h).imp fun _ h => ⟨h.1, h.2.1⟩
  | q :: ps, acc, r, k, h, ha, hq, hk => by
    rw [List.length_cons] at hk
    obtain ⟨acc1, h1, h⟩ := bind_ok h
    obtain ⟨hl, hv⟩ := addBands_ok h1
    refine foldBands_nonneg hS1 hS2 (k + 1) h ?_ (fun q' hq' => hq q' (by simp [hq'])) (by omega)
    intro a ha1
    obtain ⟨b, hb, rfl⟩ := List.getElem_of_mem ha1
    obtain ⟨y, hy, hr⟩ := hv b (by omega)
    rw [List.getElem?_eq_getElem hb] at hr
    rw [Option.some.inj hr]
    obtain ⟨u, hu1, hu0, hu2⟩ := ha _ (List.getElem_mem (show b < acc.length by omega))
    obtain ⟨w, hw1, hw0, hw2⟩ := hq q (by simp) y (List.mem_of_getElem? hy)
    obtain ⟨z, hz1, hz2⟩ := grow_step (F := F) (k := k) hS1 hS2 (by omega) ((abs_of_nonneg hu0).trans_le hu2) ((abs_of_nonneg hw0).trans_le hw2)
    exact ⟨z, (Is.add hu1 hw1).trans hz1, rnd_nonneg hz1 (add_nonneg hu0 hw0), (le_abs_self z).trans hz2⟩

theorem perPatchMean_nonneg {sel : PatchSim F → List F} {ps : List (PatchSim F)} {v : List F} (h : perPatchMean sel ps = .ok v)
    (hq : ∀ q ∈ ps, ∀ a ∈ sel q, ∃ x, Is a x ∧ 0 ≤ x ∧ x ≤ 2 ^ 13) (hl : ps.length ≤ 2 ^ 32) :
    ∀ a ∈ v, ∃ x, Is a x ∧ 0 ≤ x ∧ x ≤ 8195 := by
  have hb := perPatchMean_pw h (S := 2 ^ 13) (fun q hqm a ha => by
    obtain ⟨x, e, b0, b⟩ := hq q hqm a ha
    exact ⟨x, e, by rw [abs_of_nonneg b0]; exact b⟩) (by norm_num) (by norm_num) hl
  unfold perPatchMean at h
  obtain ⟨q, h1, h⟩ := bind_ok h
  obtain ⟨t, h2, h⟩ := bind_ok h
  cases h
  have hp : 0 < ps.length := (List.getElem?_eq_some_iff.mp (idx_ok h1)).1
  have hpr : (0 : ℝ) < ps.length := by exact_mod_cast hp
  have hsum := foldBands_nonneg (S := 2 ^ 13) (by norm_num) (two_pow_mono (by norm_num)) 0 h2 (by
    intro a ha
    rw [List.eq_of_mem_replicate ha]
    exact ⟨0, val_0, le_rfl, by simp [grow]⟩) hq (by omega)
  intro a ha
  obtain ⟨z, hz, hzb⟩ := hb a ha
  obtain ⟨b, hbm, rfl⟩ := List.mem_map.mp ha
  obtain ⟨x, hx, hx0⟩ := hsum b hbm
  have hd := hx.div (val_nat (F := F) (hl.trans (by norm_num))) hpr.ne'
  exact ⟨z, hz, rnd_nonneg (hd.symm.trans hz) (by positivity), (le_abs_self z).trans (hzb.trans (by norm_num))⟩

variable [RustFft F]

/-- The rest of the numbers, given the scores. -/
theorem allNumbers_of {p : Profile} {m m' : Manager F} {ref deg : AudioSignal F} {res : SimilarityResult F}
    (hpc : m.patchCreator = .vad 30 ∨ m.patchCreator = .image 20) (hmf : m.filterBank.minFreq = 50.0) (hnb : m.numBands ≤ 64)
    (h1k : 1000 ≤ ref.sampleRate) (h1m : ref.sampleRate ≤ 1000000) (hsr : ref.sampleRate = deg.sampleRate)
    (hlen : ref.data.length + deg.data.length ≤ 2 ^ 30) (h : m.computeResults p ref deg = .ok (m', res)) (hs : FiniteScores res) :
    AllNumbers res := by
  have hpp : 4 ≤ m.patchCreator.patchSize ∧ m.patchCreator.patchSize ≤ 30 := by rcases hpc with h | h <;> rw [h] <;> decide
  have hf := frames_bounds ⟨by omega, hpp.2⟩ (by omega) (by omega) hsr hlen h
  have hfreq := C22_result_rounded hmf h h1k h1m hnb
  obtain ⟨al, lag, _, st, ht⟩ := C52_rounded h (by omega) (by omega) hsr (by omega) (by omega)
  have hn := (st.patches_le hpc (by omega)).2
  obtain ⟨f1, f2, f3⟩ := ieee_window_facts (F := F) (sr := ref.sampleRate) (by omega) (by omega)
  have hfstd := st.fstd
  rw [f1] at hfstd
  have hstd := perPatchStdDevs_fin hfstd (fun q hq => ⟨fun a ha => by
      obtain ⟨x, e, _, b⟩ := hs.deviations q hq a ha
      exact ⟨x, e, by rw [abs_of_nonneg (by assumption)]; exact b⟩, (hs.patches q hq).2, (hf q hq).2.1 hpp.1, (hf q hq).2.2⟩) (by omega)
  have hen := perPatchMean_nonneg st.fven hs.energies (by omega)
  constructor
  · intro a ha
    unfold SimilarityResult.numbers at ha
    simp only [List.mem_cons, List.mem_append, List.mem_flatMap] at ha
    rcases ha with rfl | rfl | (((ha | ha) | ha) | ha) | ⟨q, hq, ha⟩
    · obtain ⟨x, e, _⟩ := hs.mos; exact ⟨x, e⟩
    · exact hs.vnsim
    · obtain ⟨x, e, _⟩ := hs.bands a ha; exact ⟨x, e⟩
    · obtain ⟨x, e, _⟩ := hstd a ha; exact ⟨x, e⟩
    · obtain ⟨x, e, _⟩ := hen a ha; exact ⟨x, e⟩
    · obtain ⟨x, e, _⟩ := hfreq.number a ha; exact ⟨x, e⟩
    · unfold PatchSim.numbers at ha
      simp only [List.mem_cons, List.mem_append, List.not_mem_nil, or_false] at ha
      obtain ⟨k, hk⟩ := List.mem_iff_getElem?.mp hq
      obtain ⟨i, s, t, _, hs1, hs2, _, _, _, _, hm⟩ := ht k q hk
      rcases ha with ((ha | ha) | ha) | rfl | rfl | rfl | ha
      · obtain ⟨x, e, _⟩ := (hs.patches q hq).2 a ha; exact ⟨x, e⟩
      · obtain ⟨x, e, _⟩ := hs.deviations q hq a ha; exact ⟨x, e⟩
      · obtain ⟨x, e, _⟩ := hs.energies q hq a ha; exact ⟨x, e⟩
      · exact (hs.patches q hq).1
      · exact ⟨s, hs1⟩
      · exact ⟨t, hs2⟩
      · rcases hm with hm | ⟨c, d, hc, hd, _⟩
        · rcases ha with rfl | rfl
          · rw [hm.start]; exact ⟨0, val_0⟩
          · rw [hm.stop]; exact ⟨0, val_0⟩
        · rcases ha with rfl | rfl
          · exact ⟨c, hc⟩
          · exact ⟨d, hd⟩
  · intro a ha
    rw [List.mem_append, List.mem_flatMap] at ha
    rcases ha with ha | ⟨q, hq, ha⟩
    · exact hstd a ha
    · obtain ⟨x, e, b, _⟩ := hs.deviations q hq a ha; exact ⟨x, e, b⟩
  · intro a ha
    rw [List.mem_append, List.mem_flatMap] at ha
    rcases ha with ha | ⟨q, hq, ha⟩
    · exact hen a ha
    · obtain ⟨x, e, b, c⟩ := hs.energies q hq a ha; exact ⟨x, e, b, c.trans (by norm_num)⟩

omit [Ieee F] [Libm F] [RustFft F] in
/-- C68, fullband: a model with at least as many features as there are bands is asked about the bands followed by zeros, and whatever it
answers is the score, limited to 1..5. -/
theorem C68_answers {model : SvrModel F} {v : List F} (hl : v.length ≤ model.numFeatures) {label : Option F}
    (hp : model.predict (v.map Flt.toF32 ++ List.replicate (model.numFeatures - v.length) 0.0) = some label) :
    (QualityMapper.svr model).predict v = .ok (Flt.clamp (label.getD 0.0) 1.0 5.0) := by
  have hr : resize (v.map Flt.toF32) model.numFeatures 0.0 = v.map Flt.toF32 ++ List.replicate (model.numFeatures - v.length) 0.0 := by
    unfold resize
    rw [List.take_of_length_le (by rw [List.length_map]; exact hl), List.length_map]
  show (svrPredict model v >>= _) = _
  unfold svrPredict
  rw [if_neg (by omega), hr, hp]
  rfl

omit [RustFft F] [Libm F] in
theorem Answers.predict {model : SvrModel F} {n : Nat} (h : Answers model n) (v : List F) (hv : v.length = n)
    (ha : ∀ a ∈ v, ∃ x, val a = .fin x ∧ |x| ≤ 2 ^ 18) : ∃ q, (QualityMapper.svr model).predict v = .ok q ∧ val q ≠ .nan := by
  obtain ⟨q, h1, h2⟩ := h.2 v hv ha
  rw [← hv] at h1
  refine ⟨_, C68_answers (by rw [hv]; exact h.1) h1, ?_⟩
  obtain ⟨y, hy, _⟩ := clamp_num (x := q) h2
  rw [show (some q).getD (0.0 : F) = q from rfl, hy]
  exact fun h => by cases h

variable [BoundedFft F]

/-- C88, fullband: under the conditions of C74 the comparison succeeds and every number of the result is finite. -/
theorem C88_fullband (p : Profile) (m : Manager F) {ref deg : AudioSignal F}
    (hpc : m.patchCreator = .image 20) (hnb : 0 < m.numBands) (hnb2 : m.numBands ≤ 64) (hmf : m.filterBank.minFreq = 50.0)
    {model : SvrModel F} (hmodel : m.mapper = .svr model) (hans : Answers model m.numBands)
    (hsr : ref.sampleRate = deg.sampleRate) (h1k : 1000 ≤ ref.sampleRate) (h1m : ref.sampleRate ≤ 1000000)
    (hsmall : 2 * (ref.data.length + deg.data.length) + 30 * m.searchWindow < 2147483647)
    (hrs : OrdinarySamples ref) (hds : OrdinarySamples deg) (hl : SoundFrom (ref.data.length / 2) deg)
    (hd1 : SmallDrift ref.sampleRate ref.data.length)
    (hd2 : SmallDrift ref.sampleRate (deg.data.length + ref.data.length / 2))
    (href : 51 ≤ columnCount ref.sampleRate ref.data.length)
    (hdeg : ref.data.length / 2 + windowSamples ref.sampleRate ≤ deg.data.length)
    (huse : 19 ≤ columnCount ref.sampleRate (deg.data.length - ref.data.length / 2))
    (hreach : columnCount ref.sampleRate ref.data.length ≤
      columnCount ref.sampleRate (deg.data.length - ref.data.length / 2) + m.searchWindow * 20 + 21) :
    ∃ m' res, m.computeResults p ref deg = .ok (m', res) ∧ FiniteScores res ∧ AllNumbers res := by
  obtain ⟨m', res, h, hs⟩ := C74_fullband_finite p m hpc hnb hnb2 hmf (by rw [hmodel]; exact hans.predict) hsr h1k h1m hsmall hrs hds hl hd1 hd2 href hdeg huse hreach
  exact ⟨m', res, h, hs, allNumbers_of (Or.inr hpc) hmf hnb2 h1k h1m hsr (by omega) h hs⟩

/-- C88, wideband. -/
theorem C88_wideband (p : Profile) (m : Manager F) {ref deg : AudioSignal F}
    (hpc : m.patchCreator = .vad 30) (hnb : 0 < m.numBands) (hnb2 : m.numBands ≤ 64) (hmf : m.filterBank.minFreq = 50.0)
    {scale : Bool} (hmap : m.mapper = .speech scale)
    (hsr : ref.sampleRate = deg.sampleRate) (h1k : 1000 ≤ ref.sampleRate) (h1m : ref.sampleRate ≤ 1000000)
    (hsmall : 2 * (ref.data.length + deg.data.length) + 30 * m.searchWindow < 2147483647)
    (hrs : OrdinarySamples ref) (hds : OrdinarySamples deg) (hl : SoundFrom (ref.data.length / 2) deg)
    (hd1 : SmallDrift ref.sampleRate ref.data.length)
    (hd2 : SmallDrift ref.sampleRate (deg.data.length + ref.data.length / 2))
    {norm : List F} (hn : normalizeSignal ref.data = .ok norm) {k f : Nat} (hk1 : 1 ≤ k)
    (hk : 14 + 30 * k + 30 ≤ columnCount ref.sampleRate ref.data.length) (hf : 30 * k ≤ f ∧ f < 30 * k + 30)
    (ha : Active norm (windowSamples ref.sampleRate / 4) f)
    (hdeg : ref.data.length / 2 + windowSamples ref.sampleRate ≤ deg.data.length)
    (huse : 14 + 30 * k ≤ columnCount ref.sampleRate (deg.data.length - ref.data.length / 2) + 15)
    (hreach : columnCount ref.sampleRate ref.data.length ≤
      columnCount ref.sampleRate (deg.data.length - ref.data.length / 2) + m.searchWindow * 30 + 30) :
    ∃ m' res, m.computeResults p ref deg = .ok (m', res) ∧ FiniteScores res ∧ AllNumbers res := by
  obtain ⟨m', res, h, hs⟩ := C74_wideband_finite p m hpc hnb hnb2 hmf hmap hsr h1k h1m hsmall hrs hds hl hd1 hd2 hn hk1 hk hf ha hdeg huse hreach
  exact ⟨m', res, h, hs, allNumbers_of (Or.inl hpc) hmf hnb2 h1k h1m hsr (by omega) h hs⟩

omit [BoundedFft F] in
/-- The same for files that have been compared. -/
theorem allNumbers_run {p : Profile} {world : World F} {m m' : Manager F} {res : SimilarityResult F} {r d : String} {cr cd sr nr nd : Nat} {s t : List Int}
    (hr : world.wav r = .wav cr sr 16 (some s)) (hd : world.wav d = .wav cd sr 16 (some t))
    (hcr : 0 < cr ∧ cr < 65536) (hcd : 0 < cd ∧ cd < 65536) (hs : ∀ x ∈ s, IsI16 x) (ht : ∀ x ∈ t, IsI16 x)
    (hns : s.length = nr * cr) (hnt : t.length = nd * cd) (h1k : 1000 ≤ sr) (h1m : sr ≤ 1000000) (hlen : nr + nd ≤ 2 ^ 30)
    (hpc : m.patchCreator = .vad 30 ∨ m.patchCreator = .image 20) (hmf : m.filterBank.minFreq = 50.0) (hnb : m.numBands ≤ 64)
    (h : m.run p world r d = .ok (m', res)) (hf : FiniteScores res) : AllNumbers res := by
  obtain ⟨ref, l1, r1, n1, o1, _⟩ := load_ordinary (F := F) (sr := sr) hcr.1 hcr.2 hs hns
  obtain ⟨deg, l2, r2, n2, o2, s2⟩ := load_ordinary (F := F) (sr := sr) hcd.1 hcd.2 ht hnt
  rw [C16_same_rate (by rw [hr]; exact l1) (by rw [hd]; exact l2) (by rw [r1, r2])] at h
  exact allNumbers_of hpc hmf hnb (by omega) (by omega) (by omega) (by omega) h hf

/-- C88 for files, fullband. -/
theorem C88_run_fullband (p : Profile) {world : World F} {m : Manager F} {r d path : String} {cr cd sr nr nd nb radius : Nat} {s t : List Int}
    (hr : world.wav r = .wav cr sr 16 (some s)) (hd : world.wav d = .wav cd sr 16 (some t))
    (hcr : 0 < cr ∧ cr < 65536) (hcd : 0 < cd ∧ cd < 65536) (hs : ∀ x ∈ s, IsI16 x) (ht : ∀ x ∈ t, IsI16 x)
    (hns : s.length = nr * cr) (hnt : t.length = nd * cd) (h1k : 1000 ≤ sr) (h1m : sr ≤ 1000000)
    (hm : Manager.new world nb (.fullband path) radius = .ok m) (hnb : 0 < nb) (hnb2 : nb ≤ 64)
    {model : SvrModel F} (hmodel : world.svr path = some model) (hans : Answers model nb)
    (hsmall : 2 * (nr + nd) + 30 * radius < 2147483647) {j : Nat} (hj1 : nr / 2 ≤ j) (hj2 : j < nd) (hj : frameSum cd t j ≠ 0)
    (hd1 : SmallDrift sr nr) (hd2 : SmallDrift sr (nd + nr / 2)) (href : 51 ≤ columnCount sr nr)
    (hdeg : nr / 2 + windowSamples sr ≤ nd) (huse : 19 ≤ columnCount sr (nd - nr / 2))
    (hreach : columnCount sr nr ≤ columnCount sr (nd - nr / 2) + radius * 20 + 21) :
    ∃ m' res, m.run p world r d = .ok (m', res) ∧ FiniteScores res ∧ AllNumbers res := by
  have hmap : m.mapper = .svr model := by
    unfold Manager.new at hm
    simp only [hmodel, expect, ok_bind] at hm
    cases hm
    rfl
  obtain ⟨m', res, h, hf⟩ := C74_run_fullband p hr hd hcr hcd hs ht hns hnt h1k h1m hm hnb hnb2 (by rw [hmap]; exact hans.predict) hsmall hj1 hj2 hj hd1 hd2 href hdeg huse hreach
  have hf' : m.patchCreator = .image 20 ∧ m.numBands = nb ∧ m.filterBank.minFreq = 50.0 := by
    obtain ⟨v, _, hm⟩ := bind_ok hm
    cases hm
    exact ⟨rfl, rfl, rfl⟩
  exact ⟨m', res, h, hf, allNumbers_run hr hd hcr hcd hs ht hns hnt h1k h1m (by omega) (Or.inr hf'.1) hf'.2.2 (by omega) h hf⟩

/-- C88 for files, wideband. -/
theorem C88_run_wideband (p : Profile) {world : World F} {m : Manager F} {r d : String} {cr cd sr nr nd nb radius : Nat} {s t : List Int} {u : Bool}
    (hr : world.wav r = .wav cr sr 16 (some s)) (hd : world.wav d = .wav cd sr 16 (some t))
    (hcr : 0 < cr ∧ cr < 65536) (hcd : 0 < cd ∧ cd < 65536) (hs : ∀ x ∈ s, IsI16 x) (ht : ∀ x ∈ t, IsI16 x)
    (hns : s.length = nr * cr) (hnt : t.length = nd * cd) (h1k : 1000 ≤ sr) (h1m : sr ≤ 1000000)
    (hm : Manager.new world nb (.wideband u) radius = .ok m) (hnb : 0 < nb) (hnb2 : nb ≤ 64)
    (hsmall : 2 * (nr + nd) + 30 * radius < 2147483647) {j : Nat} (hj1 : nr / 2 ≤ j) (hj2 : j < nd) (hj : frameSum cd t j ≠ 0)
    (hd1 : SmallDrift sr nr) (hd2 : SmallDrift sr (nd + nr / 2)) {k f : Nat} (hk1 : 1 ≤ k) (hk : 14 + 30 * k + 30 ≤ columnCount sr nr)
    (hf : 30 * k ≤ f ∧ f < 30 * k + 30)
    (ha : ∃ (sig : AudioSignal F) (norm : List F), loadAsMono (world.wav r) = .ok sig ∧ normalizeSignal sig.data = .ok norm ∧ Active norm (windowSamples sr / 4) f)
    (hdeg : nr / 2 + windowSamples sr ≤ nd) (huse : 14 + 30 * k ≤ columnCount sr (nd - nr / 2) + 15)
    (hreach : columnCount sr nr ≤ columnCount sr (nd - nr / 2) + radius * 30 + 30) :
    ∃ m' res, m.run p world r d = .ok (m', res) ∧ FiniteScores res ∧ AllNumbers res := by
  obtain ⟨m', res, h, hfs⟩ := C74_run_wideband p hr hd hcr hcd hs ht hns hnt h1k h1m hm hnb hnb2 hsmall hj1 hj2 hj hd1 hd2 hk1 hk hf ha hdeg huse hreach
  have hf' : m.patchCreator = .vad 30 ∧ m.numBands = nb ∧ m.filterBank.minFreq = 50.0 := by
    cases hm
    exact ⟨rfl, rfl, rfl⟩
  exact ⟨m', res, h, hfs, allNumbers_run hr hd hcr hcd hs ht hns hnt h1k h1m (by omega) (Or.inl hf'.1) hf'.2.2 (by omega) h hfs⟩

/-! ## Examples -/

/-- The hypotheses of `C88_fullband`: 2.5 s at full scale against the same delayed by 1000 samples, in double precision, with a
support vector regression that answers 3. -/
example (p : Profile) : ∃ m' res, (⟨32, 60, .image 20, .svr ⟨32, fun _ => some (some 3.0)⟩, FilterBank.new 32 50.0⟩ : Manager B64).computeResults p
    (onset B64 0 40000) (onset B64 1000 40000) = .ok (m', res) ∧ FiniteScores res ∧ AllNumbers res := by
  refine C88_fullband p _ rfl (by norm_num) (by norm_num) rfl rfl ⟨le_rfl, fun v hv ha => ⟨3.0, rfl, ?_⟩⟩ rfl (by norm_num [onset]) (by norm_num [onset]) ?_
    (onset_ordinary _ _) (onset_ordinary _ _) (onset_sound ?_ ?_) ?_ ?_ ?_ ?_ ?_ ?_
  · have := val_litnat (F := B64) (m := 30) (e := 1) (k := 3) (by norm_num) (by norm_num)
    rw [this]; exact fun h => by cases h
  all_goals try simp only [onset_length, show ∀ z n, (onset B64 z n).sampleRate = 16000 from fun _ _ => rfl]
  all_goals try unfold SmallDrift
  all_goals try unfold columnCount
  all_goals try unfold windowSamples
  all_goals norm_num

/-- The hypotheses of `C88_wideband`: the same signals, wideband. -/
example (p : Profile) (u : Bool) : ∃ m' res, (⟨21, 60, .vad 30, .speech u, FilterBank.new 21 50.0⟩ : Manager B64).computeResults p
    (onset B64 0 40000) (onset B64 1000 40000) = .ok (m', res) ∧ FiniteScores res ∧ AllNumbers res := by
  obtain ⟨norm, h1, h2⟩ := steady_active (F := B64) (n := 40000) (f := 30) val_1 (by norm_num)
  rw [show List.replicate 40000 (1.0 : B64) = (onset B64 0 40000).data by unfold onset; rw [List.replicate_zero, List.nil_append]] at h1
  refine C88_wideband p _ rfl (by norm_num) (by norm_num) rfl rfl rfl (by norm_num [onset]) (by norm_num [onset]) ?_
    (onset_ordinary _ _) (onset_ordinary _ _) (onset_sound ?_ ?_) ?_ ?_ h1 (k := 1) (f := 30) le_rfl ?_ (by norm_num) ?_ ?_ ?_ ?_
  all_goals try simp only [onset_length, show ∀ z n, (onset B64 z n).sampleRate = 16000 from fun _ _ => rfl]
  all_goals try exact h2
  all_goals try unfold SmallDrift
  all_goals try unfold columnCount
  all_goals try unfold windowSamples
  all_goals norm_num


/-- The hypotheses of `C88_run_fullband`: steady levels, with a regression that answers 3. -/
example (p : Profile) (world : World B64) (z : Int) (hz : IsI16 z) (hr : world.wav "ref.wav" = .wav 1 16000 16 (some (List.replicate 40000 z)))
    (hd : world.wav "deg.wav" = .wav 1 16000 16 (some (List.replicate 41000 1000))) (hw : world.svr "model.txt" = some ⟨32, fun _ => some (some 3.0)⟩) :
    ∃ m, Manager.new world 32 (.fullband "model.txt") 60 = .ok m ∧ ∃ m' res, m.run p world "ref.wav" "deg.wav" = .ok (m', res) ∧
      FiniteScores res ∧ AllNumbers res := by
  have hm : Manager.new world 32 (.fullband "model.txt") 60 =
      .ok ⟨32, 60, .image 20, .svr ⟨32, fun _ => some (some 3.0)⟩, FilterBank.new 32 50.0⟩ := by
    unfold Manager.new
    simp only [hw, expect, ok_bind]
  have h16 : ∀ x ∈ List.replicate 41000 (1000 : Int), IsI16 x := fun x hx => by rw [List.eq_of_mem_replicate hx]; unfold IsI16; omega
  have hj : frameSum 1 (List.replicate 41000 1000) 40000 ≠ 0 := by rw [frameSum_replicate (by norm_num)]; norm_num
  have h3 : val (3.0 : B64) ≠ .nan := by
    have := val_litnat (F := B64) (m := 30) (e := 1) (k := 3) (by norm_num) (by norm_num)
    rw [this]; exact fun h => by cases h
  refine ⟨_, hm, C88_run_fullband p hr hd (by norm_num) (by norm_num) (fun x hx => by rw [List.eq_of_mem_replicate hx]; exact hz) h16
    (nr := 40000) (nd := 41000) (by rw [List.length_replicate]) (by rw [List.length_replicate]) (by norm_num) (by norm_num) hm (by norm_num) (by norm_num) hw
    ⟨le_rfl, fun _ _ _ => ⟨3.0, rfl, h3⟩⟩ (by norm_num) (by norm_num) (j := 40000) (by norm_num) hj ?_ ?_ ?_ ?_ ?_ ?_⟩
  any_goals unfold SmallDrift
  any_goals unfold columnCount
  any_goals unfold windowSamples
  all_goals norm_num

/-- Files: the run of `full_scale_run` (the hypotheses of `C88_run_wideband` are those of `C74_run_wideband`). -/
example (p : Profile) (world : World B64) (u : Bool) (hr : world.wav "ref.wav" = .wav 1 16000 16 (some (List.replicate 40000 32767)))
    (hd : world.wav "deg.wav" = .wav 1 16000 16 (some (List.replicate 41000 1000))) :
    ∃ m, Manager.new world 21 (.wideband u) 60 = .ok m ∧ ∃ m' res, m.run p world "ref.wav" "deg.wav" = .ok (m', res) ∧ AllNumbers res := by
  obtain ⟨m, hm, m', res, h, hf⟩ := full_scale_run p world u hr hd
  have h16 : ∀ {n : Nat} {z : Int}, IsI16 z → ∀ x ∈ List.replicate n z, IsI16 x := fun hz x hx => by rw [List.eq_of_mem_replicate hx]; exact hz
  refine ⟨m, hm, m', res, h, ?_⟩
  cases hm
  exact allNumbers_run hr hd (nr := 40000) (nd := 41000) (by norm_num) (by norm_num) (h16 (by unfold IsI16; omega)) (h16 (by unfold IsI16; omega))
    (by rw [List.length_replicate]) (by rw [List.length_replicate]) (by norm_num) (by norm_num) (by norm_num) (Or.inl rfl) rfl (by norm_num) h hf

end Visqol
