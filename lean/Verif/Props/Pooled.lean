import Verif.Lemmas.Total
import Verif.Props.Result
import Verif.Lemmas.Fine
import Verif.Props.Match

/-! # The reported deviations (C69) -/

set_option linter.unusedSectionVars false

namespace Visqol

/-- The number of frames a reported patch spans, for a given distance between frames in seconds. -/
noncomputable def PatchSim.frames (q : PatchSim ℝ) (frame : ℝ) : ℕ := ⌈(q.refEnd - q.refStart) / frame⌉₊

theorem toUsize_ceil {x : ℝ} (h : 0 ≤ x) (hx : x ≤ 2 ^ 62) : Flt.toUsize (Flt.ceil x) = ⌈x⌉₊ := by
  rw [real_ceil]
  have h0 : (0 : ℤ) ≤ ⌈x⌉ := Int.ceil_nonneg h
  have h1 : ⌈x⌉ ≤ 2 ^ 62 := Int.ceil_le.mpr (by exact_mod_cast hx)
  have h2 : (⌈x⌉ : ℝ) ≤ 4611686018427387904 := by
    have : (⌈x⌉ : ℝ) ≤ ((2 ^ 62 : ℤ) : ℝ) := by exact_mod_cast h1
    refine this.trans (by norm_num)
  rw [real_toUsize_floor (by exact_mod_cast h0) (by linarith)]
  have e : (⌈x⌉ : ℝ) = ((⌈x⌉.toNat : ℕ) : ℝ) := by
    have : ((⌈x⌉.toNat : ℕ) : ℤ) = ⌈x⌉ := Int.toNat_of_nonneg h0
    exact_mod_cast this.symm
  rw [e, Nat.floor_natCast]
  rfl

theorem stdContribution_real {p : Profile} {fd : ℝ} {st st' : List ℝ × ℕ} {q : PatchSim ℝ} (hfd : 0 < fd) (ht : q.refStart < q.refEnd)
    (hb : (q.refEnd - q.refStart) / fd ≤ 2 ^ 62) (h : stdContribution p fd st q = .ok st') :
    st'.1.length = st.1.length ∧ st'.2 = st.2 + q.frames fd ∧ ∀ b < st.1.length, st'.1.getD b 0 = st.1.getD b 0 +
      (((q.frames fd : ℝ) - 1) * q.freqBandStddevs.getD b 0 ^ 2 + q.frames fd * q.freqBandMeans.getD b 0 ^ 2) := by
  have hx : 0 < (q.refEnd - q.refStart) / fd := div_pos (by linarith) hfd
  have hlen := stdContribution_length h
  unfold stdContribution at h
  dsimp only at h
  obtain ⟨c, h1, h2⟩ := bind_ok h
  cases h2
  refine ⟨hlen, by rw [toUsize_ceil hx.le hb]; rfl, fun b hbl => ?_⟩
  obtain ⟨y, e2, e1⟩ := mapE_ok_get h1 (i := b) (a := (st.1[b], b)) (by simp [hbl])
  obtain ⟨d, f1, e2⟩ := bind_ok e2
  obtain ⟨mn, f2, e2⟩ := bind_ok e2
  obtain ⟨fm, f3, e2⟩ := bind_ok e2
  cases e2
  have g1 := idx_ok f1
  have g2 := idx_ok f2
  rw [toUsize_ceil hx.le hb] at f3
  have hn : 1 ≤ q.frames fd := Nat.one_le_ceil_iff.mpr hx
  change usub p (q.frames fd) 1 = _ at f3
  rw [usub_of_le hn] at f3
  cases f3
  dsimp only at g1 g2
  simp only [List.getD_eq_getElem?_getD, e1, g1, g2, List.getElem?_eq_getElem hbl, Option.getD_some, real_ofNat]
  rw [toUsize_ceil hx.le hb]
  show _ + ((q.frames fd - 1 : ℕ) : ℝ) * d * d + (q.frames fd : ℝ) * mn * mn = _
  rw [Nat.cast_sub hn]
  push_cast
  ring

theorem stdFold_real {p : Profile} {fd : ℝ} (hfd : 0 < fd) : ∀ {ps : List (PatchSim ℝ)} {st st' : List ℝ × ℕ},
    (∀ q ∈ ps, q.refStart < q.refEnd ∧ (q.refEnd - q.refStart) / fd ≤ 2 ^ 62) → foldE (stdContribution p fd) st ps = .ok st' →
    st'.1.length = st.1.length ∧ st'.2 = st.2 + (ps.map fun q => q.frames fd).sum ∧ ∀ b < st.1.length, st'.1.getD b 0 = st.1.getD b 0 +
      (ps.map fun q => ((q.frames fd : ℝ) - 1) * q.freqBandStddevs.getD b 0 ^ 2 + q.frames fd * q.freqBandMeans.getD b 0 ^ 2).sum
  | [], st, st', _, h => by cases h; simp
  | q :: ps, st, st', hq, h => by
    obtain ⟨s1, h1, h2⟩ := bind_ok h
    obtain ⟨a1, a2, a3⟩ := stdContribution_real hfd (hq q (by simp)).1 (hq q (by simp)).2 h1
    obtain ⟨b1, b2, b3⟩ := stdFold_real hfd (fun q' h' => hq q' (by simp [h'])) h2
    refine ⟨b1.trans a1, ?_, fun b hb => ?_⟩
    · rw [b2, a2, List.map_cons, List.sum_cons, add_assoc]
    · rw [b3 b (by omega), a3 b hb, List.map_cons, List.sum_cons, add_assoc]

/-- Every reported patch lasts a positive time. -/
theorem FineStep.positive {p : Profile} {nb : ℕ} {mf : ℝ} {ref deg : AudioSignal ℝ} {w : AnalysisWindow ℝ} {r r' : PatchSim ℝ}
    (hs : 0 < ref.sampleRate) (hw : 0 < w.size) (hr : r.refStart < r.refEnd) (h : FineStep p nb mf ref deg w r r') :
    r'.refStart < r'.refEnd := by
  cases h with
  | unmatched => exact hr
  | kept => exact hr
  | @replaced ra da raa daa lag rm dm n r' h00 h1 h2 h3 h4 h5 h6 h7 h8 h9 =>
    rw [h9.2.2.1]
    have e := (alignAndTruncate_rate h3).1.trans (sliceSignal_rate h1)
    have h1 : (0 : ℝ) < raa.data.length := by exact_mod_cast (show 0 < raa.data.length by omega)
    have h2 : (0 : ℝ) < raa.sampleRate := by rw [e]; exact_mod_cast hs
    have : 0 < raa.duration := by
      unfold AudioSignal.duration
      simp only [real_ofNat]
      positivity
    linarith

theorem real_toUsize_le (x : ℝ) : ((Flt.toUsize x : ℕ) : ℝ) ≤ max x 0 := by
  rcases le_or_gt x 0 with h | h
  · rw [real_toUsize_nonpos h]; simp
  · rcases lt_or_ge x 18446744073709551616 with h' | h'
    · rw [real_toUsize_floor h.le h']
      exact (Nat.floor_le h.le).trans (le_max_left _ _)
    · refine le_trans ?_ (h'.trans (le_max_left _ _))
      have : (Flt.toUsize x : ℕ) ≤ 18446744073709551616 := by
        show (realToInt 0 18446744073709551615 x).toNat ≤ _
        unfold realToInt
        omega
      exact_mod_cast this

/-- A slice is not longer than the time asked for, up to one sample. -/
theorem sliceSignal_short {s out : AudioSignal ℝ} {a b : ℝ} (h : sliceSignal s a b = .ok out) (ha : 0 ≤ a) (hab : a ≤ b)
    (hl : s.data.length < 9223372036854775808) : (out.data.length : ℝ) ≤ (b - a) * s.sampleRate + 1 := by
  have hfs : (0 : ℝ) ≤ s.sampleRate := Nat.cast_nonneg _
  have hA : a * s.sampleRate ≤ b * s.sampleRate := mul_le_mul_of_nonneg_right hab hfs
  have hA0 : 0 ≤ a * s.sampleRate := mul_nonneg ha hfs
  have hneg : Flt.lt a (0.0 : ℝ) = false := by simp only [real_lt, real_lit0]; simpa using ha
  unfold sliceSignal at h
  obtain ⟨d, hd, h⟩ := bind_ok h
  rw [hneg] at h
  simp only [Bool.false_eq_true, if_false] at h
  have h1 := (sliceM_ok hd).1
  have hdl := sliceM_ok_length hd
  simp only [real_ofNat] at h h1 hdl
  have hAs : a * s.sampleRate < 18446744073709551616 := by
    by_contra hc
    have hc := not_lt.mp hc
    have : (18446744073709551615 : ℕ) ≤ Flt.toUsize (a * (s.sampleRate : ℝ)) := by
      show _ ≤ (realToInt 0 18446744073709551615 _).toNat
      unfold realToInt
      rw [realTrunc_nonneg hA0]
      have : (18446744073709551616 : ℤ) ≤ ⌊a * (s.sampleRate : ℝ)⌋ := Int.le_floor.mpr (by exact_mod_cast hc)
      omega
    omega
  rw [real_toUsize_floor hA0 hAs] at h1 hdl
  have hf := Nat.lt_floor_add_one (a * (s.sampleRate : ℝ))
  have hB := real_toUsize_le (b * (s.sampleRate : ℝ))
  rw [max_eq_left (hA0.trans hA)] at hB
  generalize ⌊a * (s.sampleRate : ℝ)⌋₊ = A at *
  have hX := real_toUsize_le (b * (s.sampleRate : ℝ) - s.data.length)
  generalize Flt.toUsize (b * (s.sampleRate : ℝ)) = B at *
  generalize Flt.toUsize (b * (s.sampleRate : ℝ) - s.data.length) = X at *
  rw [sub_mul]
  have hdB : (d.length : ℝ) + A ≤ B := by
    have : d.length + A ≤ B := by omega
    exact_mod_cast this
  have hdL : (d.length : ℝ) + A ≤ s.data.length := by
    have : d.length + A ≤ s.data.length := by omega
    exact_mod_cast this
  cases h
  dsimp only
  split
  · rename_i hx
    rw [List.length_append, List.length_replicate]
    push_cast
    have : (0 : ℝ) < X := by exact_mod_cast hx
    have hX' : (X : ℝ) ≤ b * s.sampleRate - s.data.length := by
      rcases max_cases (b * (s.sampleRate : ℝ) - s.data.length) 0 with ⟨e, _⟩ | ⟨e, _⟩
      · rwa [e] at hX
      · rw [e] at hX; linarith
    linarith
  · linarith

/-- A reported patch spans at most four frames more than a reference patch has. -/
theorem FineStep.frames_le {p : Profile} {nb : ℕ} {mf : ℝ} {ref deg : AudioSignal ℝ} {w : AnalysisWindow ℝ} {r r' : PatchSim ℝ} {n : ℕ}
    (hs : 0 < ref.sampleRate) (hl : ref.data.length < 9223372036854775808) (hw : 0 < w.size) (h0 : 0 ≤ r.refStart)
    (hr : r.refEnd - r.refStart = w.size / 4 / ref.sampleRate * n) (h : FineStep p nb mf ref deg w r r') :
    (r'.refEnd - r'.refStart) / (w.size / 4 / ref.sampleRate) ≤ n + 4 / w.size := by
  have hs' : (0 : ℝ) < ref.sampleRate := by exact_mod_cast hs
  have hw' : (0 : ℝ) < w.size := by exact_mod_cast hw
  have hp : 0 < (w.size / 4 / ref.sampleRate : ℝ) := by positivity
  have hkeep : (r.refEnd - r.refStart) / (w.size / 4 / ref.sampleRate) ≤ n + 4 / w.size := by
    rw [hr, mul_div_cancel_left₀ _ hp.ne']
    have : (0 : ℝ) < 4 / w.size := by positivity
    linarith
  cases h with
  | unmatched => exact hkeep
  | kept => exact hkeep
  | @replaced ra da raa daa lag rm dm nn r' h00 h1 h2 h3 h4 h5 h6 h7 h8 h9 =>
    rw [h9.2.2.1, add_sub_cancel_left]
    have hlen := sliceSignal_short h1 h0 (by
      have : 0 ≤ (w.size / 4 / ref.sampleRate : ℝ) * n := by positivity
      linarith) hl
    have hra : raa.data.length ≤ ra.data.length := alignAndTruncate_short h3
    have hra' : (raa.data.length : ℝ) ≤ ra.data.length := by exact_mod_cast hra
    have e := (alignAndTruncate_rate h3).1.trans (sliceSignal_rate h1)
    unfold AudioSignal.duration
    simp only [real_ofNat]
    rw [e]
    rw [hr] at hlen
    rw [div_div_div_cancel_right₀ hs'.ne', div_le_iff₀ (by positivity)]
    have e2 : (w.size / 4 / ref.sampleRate : ℝ) * n * ref.sampleRate + 1 = (n + 4 / w.size) * (w.size / 4) := by
      field_simp
    linarith

/-- The deviations computed from patches, in closed form. -/
theorem perPatchStdDevs_real {p : Profile} {ps : List (PatchSim ℝ)} {fd : ℝ} {f v : List ℝ} (hfd : 0 < fd)
    (hq : ∀ q ∈ ps, q.refStart < q.refEnd ∧ (q.refEnd - q.refStart) / fd ≤ 2 ^ 62)
    (hf : perPatchMean PatchSim.freqBandMeans ps = .ok f) (h : perPatchStdDevs p ps fd = .ok v) {b : ℕ} (hb : b < v.length) :
    v.getD b 0 = Real.sqrt (((ps.map fun q => ((q.frames fd : ℝ) - 1) * q.freqBandStddevs.getD b 0 ^ 2 +
        q.frames fd * q.freqBandMeans.getD b 0 ^ 2).sum - (ps.map fun q => (q.frames fd : ℝ)).sum * f.getD b 0 ^ 2) /
      ((ps.map fun q => (q.frames fd : ℝ)).sum - 1)) := by
  unfold perPatchStdDevs at h
  rw [hf] at h
  simp only [ok_bind] at h
  obtain ⟨q0, h1, h⟩ := bind_ok h
  obtain ⟨⟨c, t⟩, h2, h⟩ := bind_ok h
  obtain ⟨g1, g2, g3⟩ := stdFold_real hfd hq h2
  dsimp only at g1 g2 g3 h
  rw [List.length_replicate] at g1 g3
  have hcast : ((ps.map fun q => (q.frames fd : ℝ)).sum) = ((t : ℕ) : ℝ) := by
    rw [g2, zero_add, Nat.cast_list_sum, List.map_map]; rfl
  rw [hcast]
  have hv : v = (List.zipWith (fun c f => (c - f * f * (t : ℝ)) / ((t : ℝ) - 1)) c f).map fun e => if e < 0 then 0 else Real.sqrt e := by
    simp only [real_ofNat, real_lit0, real_lit1, real_lt, decide_eq_true_eq, real_sqrt] at h
    exact (Except.ok.inj h).symm
  rw [hv, List.length_map, List.length_zipWith] at hb
  have hc : c[b]? = some (c.getD b 0) := by simp [List.getD_eq_getElem?_getD, List.getElem?_eq_getElem (show b < c.length by omega)]
  have hfb : f[b]? = some (f.getD b 0) := by simp [List.getD_eq_getElem?_getD, List.getElem?_eq_getElem (show b < f.length by omega)]
  have hc2 := g3 b (by omega)
  rw [List.getD_eq_getElem?_getD (l := List.replicate _ _), List.getElem?_replicate, if_pos (by omega)] at hc2
  simp only [Option.getD_some, real_lit0, zero_add] at hc2
  have hv' : v.getD b 0 = if (c.getD b 0 - f.getD b 0 * f.getD b 0 * t) / (t - 1) < 0 then 0 else
      Real.sqrt ((c.getD b 0 - f.getD b 0 * f.getD b 0 * t) / (t - 1)) := by
    rw [hv, List.getD_eq_getElem?_getD, List.getElem?_map, List.getElem?_zipWith, hc, hfb]
    rfl
  rw [hv', ← hc2, show (t : ℝ) * f.getD b 0 ^ 2 = f.getD b 0 * f.getD b 0 * t by ring]
  split
  · rename_i hn
    rw [Real.sqrt_eq_zero_of_nonpos hn.le]
  · rfl

/-- The frame distance used in the formula for the deviations. -/
theorem frame_eq (w : AnalysisWindow ℝ) (hov : w.overlap = 0.25) (sr : ℕ) :
    Flt.ofNat w.size * w.overlap / Flt.ofNat sr = (w.size : ℝ) / 4 / sr := by
  rw [hov]
  show (w.size : ℝ) * (OfScientific.ofScientific 25 true 2) / (sr : ℝ) = (w.size : ℝ) / 4 / sr
  rw [real_sci]
  norm_num
  ring

theorem Stages.rate_pos {p : Profile} {nb : ℕ} {fb : FilterBank ℝ} {ref deg : AudioSignal ℝ} {sr : ℕ} {pc : PatchCreator}
    {mapper : QualityMapper ℝ} {sw : ℕ} {res : SimilarityResult ℝ}
    (st : Stages p nb fb ref deg (AnalysisWindow.mk' sr 0.25 0.08) pc mapper sw res) : 0 < sr := by
  by_contra hc
  have h0 : sr = 0 := by omega
  have := st.hsize
  rw [h0] at this
  unfold AnalysisWindow.mk' at this
  simp only [real_ofNat, Nat.cast_zero, zero_mul, real_round] at this
  rw [show realRound 0 = 0 by unfold realRound; norm_num, real_toUsize_nonpos le_rfl] at this
  omega

/-- The durations of the reported patches of a comparison: positive, and no longer than a reference patch plus a sample. -/
theorem reported_durations {p : Profile} {m m' : Manager ℝ} {ref deg : AudioSignal ℝ} {res : SimilarityResult ℝ}
    (hp : 0 < m.patchCreator.patchSize) (hlen : ref.data.length + deg.data.length < 9223372036854775808)
    (h : m.computeResults p ref deg = .ok (m', res)) :
    let size := (AnalysisWindow.mk' ref.sampleRate 0.25 0.08 : AnalysisWindow ℝ).size
    0 < size ∧ 0 < ref.sampleRate ∧ ∀ q ∈ res.patchSims, q.refStart < q.refEnd ∧
      (q.refEnd - q.refStart) / (size / 4 / ref.sampleRate) ≤ m.patchCreator.patchSize + 4 / size := by
  obtain ⟨al, lag, hal, ⟨st⟩⟩ := computeResults_stages h
  have hs0 := st.rate_pos
  set w : AnalysisWindow ℝ := AnalysisWindow.mk' ref.sampleRate 0.25 0.08 with hw
  intro size
  have hfr := frame_eq w rfl ref.sampleRate
  have hfd : 0 < (w.size : ℝ) / 4 / ref.sampleRate := by
    have h1 : (0 : ℝ) < w.size := by exact_mod_cast st.hsize
    have h2 : (0 : ℝ) < ref.sampleRate := by exact_mod_cast hs0
    positivity
  have hcoarse : ∀ r ∈ st.coarse, 0 ≤ r.refStart ∧ r.refEnd - r.refStart = (w.size : ℝ) / 4 / ref.sampleRate * m.patchCreator.patchSize := by
    obtain ⟨w1, w2, _, _, h5, h6⟩ := st.shapes
    obtain ⟨c1, c2⟩ := createPatches_ok st.created w1
    intro r hr
    obtain ⟨k, hk⟩ := List.getElem?_of_mem hr
    have hlal := globallyAlign_length hal
    obtain ⟨h1, ⟨i, _, h2⟩, _⟩ := C52_coarse_times st.found c1 (fun q hq => (c2 q hq).2.2) w2 (by
      rw [h6]
      have := @numColumns_le al.data.length w.size w.hop
      unfold usizeMod; omega) k r hk
    rw [h1, h2, hfr, real_ofNat, real_ofNat]
    exact ⟨by positivity, by ring⟩
  have hst := finelyAlign_steps st.fine
  refine ⟨st.hsize, hs0, fun q hq => ?_⟩
  obtain ⟨k, hk, rfl⟩ := List.getElem_of_mem hq
  have hk' : k < st.coarse.length := by rw [hst.length_eq]; exact hk
  obtain ⟨c1, c2⟩ := hcoarse _ (List.getElem_mem hk')
  have hp' : (0 : ℝ) < m.patchCreator.patchSize := by exact_mod_cast hp
  have hlt : st.coarse[k].refStart < st.coarse[k].refEnd := sub_pos.mp (c2 ▸ mul_pos hfd hp')
  exact ⟨(hst.get hk' hk).positive hs0 st.hsize hlt, (hst.get hk' hk).frames_le hs0 (by omega) st.hsize c1 c2⟩

/-- C69, formula: the reported deviation of band `b` pools the deviations and means of the reported patches, each patch counted
with the number of frames its reported duration spans, at most four more than a reference patch has. -/
theorem C69_formula {p : Profile} {m m' : Manager ℝ} {ref deg : AudioSignal ℝ} {res : SimilarityResult ℝ}
    (hp : 0 < m.patchCreator.patchSize) (hp2 : m.patchCreator.patchSize ≤ 2 ^ 61)
    (hlen : ref.data.length + deg.data.length < 9223372036854775808)
    (h : m.computeResults p ref deg = .ok (m', res)) :
    let frame := ((AnalysisWindow.mk' ref.sampleRate 0.25 0.08 : AnalysisWindow ℝ).size : ℝ) / 4 / ref.sampleRate
    (∀ q ∈ res.patchSims, 1 ≤ q.frames frame ∧ q.frames frame ≤ m.patchCreator.patchSize + 4) ∧
    ∀ b < m.numBands, res.fstdnsim.getD b 0 =
      Real.sqrt (((res.patchSims.map fun q => ((q.frames frame : ℝ) - 1) * q.freqBandStddevs.getD b 0 ^ 2 +
        q.frames frame * q.freqBandMeans.getD b 0 ^ 2).sum -
          (res.patchSims.map fun q => (q.frames frame : ℝ)).sum * res.fvnsim.getD b 0 ^ 2) /
        ((res.patchSims.map fun q => (q.frames frame : ℝ)).sum - 1)) := by
  intro frame
  obtain ⟨d1, d2, d3⟩ := reported_durations hp hlen h
  have hl := (C05_shapes h).2.1
  obtain ⟨al, lag, hal, ⟨st⟩⟩ := computeResults_stages h
  set w : AnalysisWindow ℝ := AnalysisWindow.mk' ref.sampleRate 0.25 0.08 with hw
  have h1 : (1 : ℝ) ≤ w.size := by exact_mod_cast d1
  have hfd : 0 < frame := by
    have h2 : (0 : ℝ) < ref.sampleRate := by exact_mod_cast d2
    have h3 : (0 : ℝ) < w.size := by linarith
    exact div_pos (div_pos h3 (by norm_num)) h2
  have h4 : (4 : ℝ) / w.size ≤ 4 := div_le_self (by norm_num) h1
  have hle : ∀ q ∈ res.patchSims, (q.refEnd - q.refStart) / frame ≤ ((m.patchCreator.patchSize + 4 : ℕ) : ℝ) := by
    intro q hq
    have := (d3 q hq).2
    push_cast
    exact this.trans (by linarith)
  refine ⟨fun q hq => ⟨Nat.one_le_ceil_iff.mpr (div_pos (by linarith [(d3 q hq).1]) hfd), Nat.ceil_le.mpr (hle q hq)⟩, fun b hbn => ?_⟩
  refine perPatchStdDevs_real (p := p) (b := b) hfd (fun q hq => ⟨(d3 q hq).1, (hle q hq).trans ?_⟩) st.fvn ?_ (by omega)
  · have : m.patchCreator.patchSize + 4 ≤ 2 ^ 62 := by omega
    exact_mod_cast this
  · have := st.fstd
    rwa [frame_eq _ rfl] at this

theorem sum_sq_dev (l : List ℝ) (hl : l ≠ []) :
    (l.map fun x => (x - mean l) ^ 2).sum = (l.map fun x => x ^ 2).sum - l.length * mean l ^ 2 := by
  have hp : (l.length : ℝ) ≠ 0 := by
    have := List.length_pos_iff.mpr hl
    positivity
  have key : ∀ (c : ℝ) (k : List ℝ), (k.map fun x => (x - c) ^ 2).sum = (k.map fun x => x ^ 2).sum - 2 * c * k.sum + k.length * c ^ 2 := by
    intro c k
    induction k with
    | nil => simp
    | cons a k ih => simp only [List.map_cons, List.sum_cons, List.length_cons, ih]; push_cast; ring
  rw [key]
  have : l.sum = l.length * mean l := by unfold mean; field_simp
  rw [this]
  ring

theorem sampleStd_sq (l : List ℝ) (hl : l ≠ []) :
    ((l.length : ℝ) - 1) * sampleStd l ^ 2 = (l.map fun x => x ^ 2).sum - l.length * mean l ^ 2 := by
  rw [← sum_sq_dev l hl]
  have hp := List.length_pos_iff.mpr hl
  have hd : 0 ≤ (l.map fun x => (x - mean l) ^ 2).sum := List.sum_nonneg (by
    intro x hx
    obtain ⟨y, _, rfl⟩ := List.mem_map.mp hx
    positivity)
  rcases Nat.lt_or_ge 1 l.length with h | h
  · have h1 : (0 : ℝ) < (l.length : ℝ) - 1 := by
      have : (1 : ℝ) < l.length := by exact_mod_cast h
      linarith
    unfold sampleStd
    rw [Real.sq_sqrt (by positivity)]
    field_simp
  · obtain ⟨x, rfl⟩ := List.length_eq_one_iff.mp (show l.length = 1 by omega)
    simp [mean]

theorem flatten_sums (f : ℝ → ℝ) (cells : List (List ℝ)) : (cells.flatten.map f).sum = (cells.map fun l => (l.map f).sum).sum := by
  induction cells with
  | nil => simp
  | cons a k ih => rw [List.flatten_cons, List.map_append, List.sum_append, ih, List.map_cons, List.sum_cons]

/-- Pooling equally long lists of values from their means and deviations. -/
theorem pooled_std {n : ℕ} (hn : 0 < n) {cells : List (List ℝ)} (hne : cells ≠ []) (hc : ∀ l ∈ cells, l.length = n) :
    Real.sqrt (((cells.map fun l => ((n : ℝ) - 1) * sampleStd l ^ 2 + n * mean l ^ 2).sum -
      (cells.length * n : ℝ) * mean (cells.map mean) ^ 2) / (cells.length * n - 1)) = sampleStd cells.flatten := by
  have hk := List.length_pos_iff.mpr hne
  have hlen : cells.flatten.length = cells.length * n := by
    rw [List.length_flatten, List.map_congr_left hc]
    simp
  have hkr : (0 : ℝ) < cells.length := by exact_mod_cast hk
  have hnr : (0 : ℝ) < n := by exact_mod_cast hn
  have h1 : (cells.map fun l => ((n : ℝ) - 1) * sampleStd l ^ 2 + n * mean l ^ 2).sum = (cells.flatten.map fun x => x ^ 2).sum := by
    rw [flatten_sums]
    congr 1
    refine List.map_congr_left fun l hl => ?_
    have := sampleStd_sq l (by intro h; have := hc l hl; rw [h] at this; simp at this; omega)
    rw [hc l hl] at this
    linarith
  have h2 : mean (cells.map mean) = mean cells.flatten := by
    have e : cells.flatten.sum = n * (cells.map mean).sum := by
      have := flatten_sums id cells
      rw [List.map_id] at this
      rw [this, ← List.sum_map_mul_left]
      congr 1
      refine List.map_congr_left fun l hl => ?_
      unfold mean
      rw [hc l hl]
      rw [List.map_id]
      field_simp
    unfold mean at *
    rw [e, hlen, List.length_map]
    push_cast
    field_simp
  have hfne : cells.flatten ≠ [] := by
    intro h
    rw [h] at hlen
    have := Nat.mul_pos hk hn
    simp only [List.length_nil] at hlen
    omega
  rw [h1, h2]
  unfold sampleStd
  rw [sum_sq_dev _ hfne, hlen]
  push_cast
  rfl

/-- C69, pooling: given patches that carry, in every band, the mean and the deviation of as many values as the frames they span,
the same number `n` in all patches, the standard deviations computed are those of all the values together.  (`cells q b` are
the values of patch `q` in band `b`.) -/
theorem C69_pooled (p : Profile) {ps : List (PatchSim ℝ)} {frame : ℝ} {nb n : ℕ} (hne : ps ≠ []) (hf : 0 < frame) (hn : 0 < n)
    (hn2 : n ≤ 2 ^ 62) (cells : PatchSim ℝ → ℕ → List ℝ)
    (hq : ∀ q ∈ ps, q.refStart < q.refEnd ∧ q.frames frame = n ∧ q.freqBandMeans.length = nb ∧ q.freqBandStddevs.length = nb ∧
      ∀ b < nb, (cells q b).length = n ∧ q.freqBandMeans.getD b 0 = mean (cells q b) ∧
        q.freqBandStddevs.getD b 0 = sampleStd (cells q b)) :
    ∃ v, perPatchStdDevs p ps frame = .ok v ∧ v.length = nb ∧
      ∀ b < nb, v.getD b 0 = sampleStd (ps.map fun q => cells q b).flatten := by
  obtain ⟨v, hv⟩ := perPatchStdDevs_total p hne hf (fun q h => ⟨(hq q h).2.2.1, (hq q h).2.2.2.1⟩) (fun q h => (hq q h).1)
  obtain ⟨f, hfm, hfl⟩ := perPatchMean_total (sel := PatchSim.freqBandMeans) hne (fun q h => (hq q h).2.2.1) (fun q h => (hq q h).2.2.1)
  have hvl : v.length = nb := by
    obtain ⟨q, h0, h1⟩ := perPatchStdDevs_ok hv
    rw [h1, (hq q (List.mem_of_getElem? h0)).2.2.1]
  refine ⟨v, hv, hvl, fun b hb => ?_⟩
  rw [perPatchStdDevs_real hf (fun q h => ⟨(hq q h).1, ?_⟩) hfm hv (by omega), (perPatchMean_real hfm (b := b) (by omega)).1,
    ← pooled_std hn (by simpa using hne) (by simpa using fun q h => ((hq q h).2.2.2.2 b hb).1)]
  · rw [List.map_congr_left (g := fun q => ((n : ℝ) - 1) * sampleStd (cells q b) ^ 2 + n * mean (cells q b) ^ 2) (fun q h => by
        rw [(hq q h).2.1, ((hq q h).2.2.2.2 b hb).2.1, ((hq q h).2.2.2.2 b hb).2.2]),
      List.map_congr_left (l := ps) (f := fun q => (q.frames frame : ℝ)) (g := fun _ => (n : ℝ)) (fun q h => by rw [(hq q h).2.1]),
      List.map_congr_left (l := ps) (f := fun q => q.freqBandMeans.getD b 0) (g := fun q => mean (cells q b))
        (fun q h => ((hq q h).2.2.2.2 b hb).2.1)]
    simp only [List.map_map, List.length_map, mean, List.map_const', List.sum_replicate, nsmul_eq_mul, Function.comp_def]
  · have := Nat.le_ceil ((q.refEnd - q.refStart) / frame)
    have h2 : (q.frames frame : ℝ) ≤ 2 ^ 62 := by rw [(hq q h).2.1]; exact_mod_cast hn2
    exact this.trans h2

/-- Two patches of two frames and one band. -/
example : ∃ (ps : List (PatchSim ℝ)) (cells : PatchSim ℝ → ℕ → List ℝ), ps.length = 2 ∧
    (ps.map fun q => cells q 0).flatten = [0, 1, 1, 1] ∧
    ∀ q ∈ ps, q.refStart < q.refEnd ∧ q.frames (1 / 50) = 2 ∧ q.freqBandMeans.length = 1 ∧ q.freqBandStddevs.length = 1 ∧
      ∀ b < 1, (cells q b).length = 2 ∧ q.freqBandMeans.getD b 0 = mean (cells q b) ∧
        q.freqBandStddevs.getD b 0 = sampleStd (cells q b) := by
  refine ⟨[⟨[1 / 2], [sampleStd [0, 1]], [], 1 / 2, 0, 1 / 25, 0, 1 / 25⟩, ⟨[1], [sampleStd [1, 1]], [], 1, 1, 26 / 25, 1, 26 / 25⟩],
    fun q _ => if q.refStart = 0 then [0, 1] else [1, 1], rfl, by simp, ?_⟩
  intro q hq
  rcases List.mem_cons.mp hq with rfl | hq
  · refine ⟨by norm_num, ?_, rfl, rfl, fun b hb => ?_⟩
    · unfold PatchSim.frames; norm_num
    · obtain rfl : b = 0 := by omega
      simp [mean]
  · rw [List.mem_singleton] at hq
    subst hq
    refine ⟨by norm_num, ?_, rfl, rfl, fun b hb => ?_⟩
    · unfold PatchSim.frames; norm_num
    · obtain rfl : b = 0 := by omega
      simp [mean]

end Visqol
