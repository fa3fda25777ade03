import Verif.Props.Self
import Verif.Props.Prepare

/-! # In exact arithmetic the stages of a comparison do not fail -/

set_option linter.unusedSectionVars false

namespace Visqol

theorem sortFreqs_total (l : List ℝ) : ∃ s, sortFreqs l = .ok s := by
  unfold sortFreqs
  rw [if_neg (by simp)]
  exact ⟨_, rfl⟩

theorem buildSpectrogram_total (nb : Nat) (fb : FilterBank ℝ) (s : AudioSignal ℝ) (w : AnalysisWindow ℝ)
    (h1 : w.size ≤ s.data.length) (h2 : 0 < w.hop) (h3 : 0 < w.size) :
    ∃ fb' sp, buildSpectrogram nb fb s w = .ok (fb', sp) ∧ sp.data = spectroMat nb fb.minFreq s w ∧ fb'.minFreq = fb.minFreq := by
  obtain ⟨fb', h⟩ := buildSpectrogram_eq nb fb s w h1 h2 h3
  obtain ⟨so, hs⟩ := sortFreqs_total (rawFreqs nb s.sampleRate fb.minFreq)
  rw [hs] at h
  exact ⟨fb', _, h, rfl, buildSpectrogram_minFreq h⟩

theorem globallyAlign_total (p : Profile) {ref deg : AudioSignal ℝ} (hr : ref.data ≠ []) (hd : deg.data ≠ [])
    (h9 : 9 ≤ max ref.data.length deg.data.length) (hbig : max ref.data.length deg.data.length ≤ 2 ^ 62)
    (hhalf : ref.data.length / 2 ≤ deg.data.length) :
    ∃ out t, globallyAlign p ref deg = .ok (some (out, t)) ∧ out.sampleRate = deg.sampleRate ∧
      deg.data.length - ref.data.length / 2 ≤ out.data.length := by
  have key : ∃ out t, globallyAlign p ref deg = .ok (some (out, t)) := by
    obtain ⟨renv, he1, hl1⟩ := calculateUpperEnv_total (p := p) hr (by omega)
    obtain ⟨denv, he2, hl2⟩ := calculateUpperEnv_total (p := p) hd (by omega)
    obtain ⟨lag, hb, _⟩ := C40_best_lag p renv denv (by omega) (by omega)
    unfold globallyAlign
    rw [he1]
    simp only [ok_bind]
    rw [he2]
    simp only [ok_bind]
    rw [hb]
    simp only [ok_bind]
    split
    · exact ⟨_, _, rfl⟩
    · split
      · rw [sliceM_of_le (by omega) (by omega)]
        exact ⟨_, _, rfl⟩
      · exact ⟨_, _, rfl⟩
  obtain ⟨out, t, h⟩ := key
  refine ⟨out, t, h, (C39_only_shifts h).1, ?_⟩
  obtain ⟨_, ⟨e, _⟩ | ⟨lag, _, h2, _, ⟨_, _, e⟩ | ⟨_, e⟩⟩⟩ := C39_only_shifts h
  · rw [e]; omega
  · rw [e, List.length_drop]; omega
  · rw [e, List.length_append]; omega

theorem alignAndTruncate_total (p : Profile) {ref deg : AudioSignal ℝ} (hr : ref.data ≠ []) (hd : deg.data ≠ [])
    (h9 : 9 ≤ max ref.data.length deg.data.length) (hbig : max ref.data.length deg.data.length ≤ 2 ^ 62)
    (hhalf : ref.data.length / 2 ≤ deg.data.length) (hsr : ref.sampleRate = deg.sampleRate) (h0 : 0 < ref.sampleRate) :
    ∃ r d t, alignAndTruncate p ref deg = .ok (some (r, d, t)) ∧ r.data.length = d.data.length ∧ r.sampleRate = ref.sampleRate ∧
      d.sampleRate = deg.sampleRate ∧
      min (ref.data.length - ref.data.length / 2) (deg.data.length - ref.data.length / 2) ≤ r.data.length := by
  obtain ⟨out, t, h, h1, h2⟩ := globallyAlign_total p hr hd h9 hbig hhalf
  have hoff : Flt.toUsize (t * (Flt.ofNat ref.sampleRate : ℝ)) ≤ ref.data.length / 2 := by
    have hne : (ref.sampleRate : ℝ) ≠ 0 := by positivity
    obtain ⟨_, ⟨_, ht⟩ | ⟨lag, hl0, hl1, ht, hc⟩⟩ := C39_only_shifts h
    · rw [ht, real_lit0, zero_mul, real_toUsize_nonpos le_rfl]; omega
    · have e : t * (Flt.ofNat ref.sampleRate : ℝ) = lag := by
        rw [ht, ← hsr]; simp only [real_ofNat, real_ofInt]; field_simp
      rw [e]
      rcases hc with ⟨hneg, _, _⟩ | ⟨hpos, _⟩
      · rw [real_toUsize_nonpos (by exact_mod_cast hneg.le)]; omega
      · have hlag : ((lag.natAbs : ℕ) : ℝ) = (lag : ℝ) := by
          rw [Nat.cast_natAbs, abs_of_pos hpos]
        rw [← hlag, real_toUsize_floor (by positivity), Nat.floor_natCast]
        · exact hl1
        · have : lag.natAbs < 18446744073709551616 := by omega
          exact_mod_cast this
  have key : ∃ r d, alignAndTruncate p ref deg = .ok (some (r, d, t)) := by
    unfold alignAndTruncate
    rw [h]
    simp only [ok_bind]
    split
    · rw [sliceM_of_le (by omega) (by omega), ← hsr, sliceM_of_le (by omega) (by omega)]
      exact ⟨_, _, rfl⟩
    · split
      · rw [sliceM_of_le (by omega) (by omega)]
        exact ⟨_, _, rfl⟩
      · exact ⟨_, _, rfl⟩
  obtain ⟨r, d, hk⟩ := key
  obtain ⟨e1, e2, e3, al, off, e4, _, _, e5, e6⟩ := C37_equal_length hsr hk
  rw [h] at e4
  cases e4
  refine ⟨r, d, t, hk, e1, e2, e3, ?_⟩
  rcases e6 with e6 | e6
  · omega
  · -- the offset is only used when the aligned signal is the longer one
    by_cases hlt : ref.data.length < out.data.length
    · omega
    · have h0' : off = 0 ∨ out.data.length ≤ ref.data.length := .inr (by omega)
      unfold alignAndTruncate at hk
      rw [h] at hk
      simp only [ok_bind] at hk
      rw [if_neg hlt] at hk
      split at hk
      · obtain ⟨x, hx, hk⟩ := bind_ok hk
        cases hk
        have := sliceM_ok_length hx
        dsimp only at e5 e1 ⊢
        omega
      · cases hk
        omega

/-- Comparing two stretches of at least two and a half windows: alignment, spectrograms and similarity all succeed. -/
theorem compareSlices_total (p : Profile) {nb : Nat} (hnb : 0 < nb) (fb : FilterBank ℝ) {w : AnalysisWindow ℝ} (h2 : 0 < w.hop)
    (h3 : 0 < w.size) {ra da : AudioSignal ℝ} (hsr : ra.sampleRate = da.sampleRate) (h0 : 0 < ra.sampleRate)
    (h9 : 9 ≤ ra.data.length) (hr : 2 * w.size ≤ ra.data.length) (hd : w.size + ra.data.length / 2 ≤ da.data.length)
    (hbig : max ra.data.length da.data.length ≤ 2 ^ 62) :
    ∃ raa daa lag f1 f2 s1 s2 rm dm n, alignAndTruncate p ra da = .ok (some (raa, daa, lag)) ∧
      buildSpectrogram nb fb raa w = .ok (f1, s1) ∧ buildSpectrogram nb f1 daa w = .ok (f2, s2) ∧
      prepareSpectrograms s1.data s2.data = .ok (rm, dm) ∧ measurePatchSimilarity p rm dm = .ok n ∧
      raa.sampleRate = ra.sampleRate ∧ w.size ≤ raa.data.length := by
  obtain ⟨raa, daa, lag, a1, a2, a3, a4, a5⟩ := alignAndTruncate_total p (ref := ra) (deg := da)
    (by intro h; rw [h] at h9; simp at h9) (by intro h; rw [h] at hd; simp at hd; omega) (by omega) hbig (by omega) hsr h0
  have hw1 : w.size ≤ raa.data.length := by omega
  obtain ⟨f1, s1, b1, b2, b3⟩ := buildSpectrogram_total nb fb raa w hw1 h2 h3
  obtain ⟨f2, s2, c1, c2, c3⟩ := buildSpectrogram_total nb f1 daa w (by omega) h2 h3
  have wf1 := spectroMat_wf nb fb.minFreq raa w
  have wf2 := spectroMat_wf nb f1.minFreq daa w
  have n1 := spectroMat_nrows nb fb.minFreq raa w
  have n2 := spectroMat_nrows nb f1.minFreq daa w
  have m1 : (spectroMat nb fb.minFreq raa w).ncols = numColumns raa.data.length w.size w.hop := rfl
  have m2 : (spectroMat nb f1.minFreq daa w).ncols = numColumns daa.data.length w.size w.hop := rfl
  have hp : 0 < numColumns raa.data.length w.size w.hop := by unfold numColumns; exact Nat.lt_of_lt_of_le Nat.one_pos (Nat.le_add_right _ _)
  rw [← a2] at m2
  obtain ⟨rm, dm, d1⟩ := C23_total wf1 wf2 (by omega) (by omega) (by omega) (by omega)
  obtain ⟨w1, w2, q1, q2, q3, q4⟩ := prepare_shape d1 wf1 wf2
  obtain ⟨n, e1⟩ := measure_of_shape p w1 w2 ⟨by omega, by omega⟩ (by omega) (by omega)
  exact ⟨raa, daa, lag, f1, f2, s1, s2, rm, dm, n, a1, b1, c1, by rw [b2, c2]; exact d1, e1, a3, hw1⟩

/-- Times of a patch in samples. -/
theorem slice_patch {s : AudioSignal ℝ} {W pp i : Nat} (h0 : 0 < s.sampleRate)
    (hin : i * W / 4 ≤ s.data.length) (hbig : (i + pp) * W < 4611686018427387904) {a b : ℝ}
    (ha : a = i * ((W : ℝ) / 4 / s.sampleRate)) (hb : b = a + (W : ℝ) / 4 / s.sampleRate * pp) :
    ∃ out, sliceSignal s a b = .ok out ∧ out.data.length = (i + pp) * W / 4 - i * W / 4 ∧ out.sampleRate = s.sampleRate := by
  have hne : (s.sampleRate : ℝ) ≠ 0 := by positivity
  have hA : a * s.sampleRate = ((i * W : ℕ) : ℝ) / 4 := by rw [ha]; push_cast; field_simp
  have hB : b * s.sampleRate = (((i + pp) * W : ℕ) : ℝ) / 4 := by rw [hb, ha]; push_cast; field_simp
  have hfl : ∀ n : ℕ, ⌊((n : ℕ) : ℝ) / 4⌋₊ = n / 4 := fun n => by
    have := Nat.floor_div_natCast (n : ℝ) 4
    rw [Nat.floor_natCast] at this
    exact_mod_cast this
  have h1 : 0 ≤ a := by rw [ha]; positivity
  have h2 : a ≤ b := by rw [hb]; have : (0 : ℝ) ≤ (W : ℝ) / 4 / s.sampleRate * pp := by positivity
                        linarith
  obtain ⟨d, d1, d2, _⟩ := C38_slice s h1 h2 (by rw [hA, hfl]; exact hin) (by
    rw [hB]
    have : (((i + pp) * W : ℕ) : ℝ) < 4611686018427387904 := by exact_mod_cast hbig
    linarith)
  rw [hA, hB, hfl, hfl] at d2
  exact ⟨_, d1, d2, rfl⟩

/-- Fine alignment of one coarse result succeeds when both patches start inside their signals. -/
theorem finelyAlignPatch_total (p : Profile) {nb : Nat} (hnb : 0 < nb) (fb : FilterBank ℝ) {w : AnalysisWindow ℝ} (h2 : 0 < w.hop)
    (h4 : 4 ≤ w.size) {ref deg : AudioSignal ℝ} (hsr : ref.sampleRate = deg.sampleRate) (h0 : 0 < ref.sampleRate) {i o pp : Nat}
    (hpp : 20 ≤ pp) (hi : i * w.size / 4 ≤ ref.data.length) (ho : o * w.size / 4 ≤ deg.data.length)
    (hbi : (i + pp) * w.size < 4611686018427387904) (hbo : (o + pp) * w.size < 4611686018427387904) {r : PatchSim ℝ}
    (e1 : r.refStart = i * ((w.size : ℝ) / 4 / ref.sampleRate)) (e2 : r.refEnd = r.refStart + (w.size : ℝ) / 4 / ref.sampleRate * pp)
    (e3 : r.degStart = o * ((w.size : ℝ) / 4 / ref.sampleRate)) (e4 : r.degEnd = r.degStart + (w.size : ℝ) / 4 / ref.sampleRate * pp) :
    ∃ fb' r', finelyAlignPatch p nb ref deg w fb r = .ok (fb', r') ∧ r'.refStart < r'.refEnd ∧ fb'.minFreq = fb.minFreq := by
  obtain ⟨ra, a1, a2, a3⟩ := slice_patch h0 hi hbi e1 e2
  obtain ⟨da, b1, b2, b3⟩ := slice_patch (hsr ▸ h0) ho hbo (hsr ▸ e3) (hsr ▸ e4)
  have hm1 : (i + pp) * w.size = i * w.size + pp * w.size := Nat.add_mul _ _ _
  have hm2 : (o + pp) * w.size = o * w.size + pp * w.size := Nat.add_mul _ _ _
  have hm3 : 20 * w.size ≤ pp * w.size := Nat.mul_le_mul_right _ hpp
  rw [hm1] at a2 hbi
  rw [hm2] at b2 hbo
  have hpos : (0 : ℝ) < (w.size : ℝ) / 4 / ref.sampleRate * pp := by
    have : (0 : ℝ) < w.size := by exact_mod_cast (show 0 < w.size by omega)
    have : (0 : ℝ) < ref.sampleRate := by exact_mod_cast h0
    have : (0 : ℝ) < pp := by exact_mod_cast (show 0 < pp by omega)
    positivity
  generalize i * w.size = X at *
  generalize o * w.size = Y at *
  generalize pp * w.size = Z at *
  obtain ⟨raa, daa, lag, f1, f2, s1, s2, rm, dm, n, c1, c2, c3, c4, c5, c6, c7⟩ := compareSlices_total p hnb fb h2 (by omega)
    (ra := ra) (da := da) (by omega) (by omega) (by omega) (by omega) (by omega) (by omega)
  have hdur : 0 < raa.duration := by
    unfold AudioSignal.duration
    have : (0 : ℝ) < raa.data.length := by exact_mod_cast (show 0 < raa.data.length by omega)
    have : (0 : ℝ) < raa.sampleRate := by exact_mod_cast (show 0 < raa.sampleRate by omega)
    simp only [real_ofNat]
    positivity
  have hm := (buildSpectrogram_minFreq c3).trans (buildSpectrogram_minFreq c2)
  unfold finelyAlignPatch
  split
  · exact ⟨fb, r, rfl, by rw [e2]; linarith, rfl⟩
  · rw [a1]
    simp only [ok_bind]
    rw [b1]
    simp only [ok_bind]
    rw [c1]
    simp only [ok_bind]
    rw [c2]
    simp only [ok_bind]
    rw [c3]
    simp only [ok_bind]
    rw [c4]
    simp only [ok_bind]
    rw [c5]
    simp only [ok_bind]
    split
    · exact ⟨f2, r, rfl, by rw [e2]; linarith, hm⟩
    · refine ⟨_, _, rfl, ?_, hm⟩
      dsimp only
      linarith

/-- Fine alignment of all coarse results. -/
theorem finelyAlign_total (p : Profile) {nb : Nat} {w : AnalysisWindow ℝ} {ref deg : AudioSignal ℝ} : ∀ (rs : List (PatchSim ℝ))
    (fb : FilterBank ℝ), (∀ r ∈ rs, ∀ fb, ∃ fb' r', finelyAlignPatch p nb ref deg w fb r = .ok (fb', r') ∧ r'.refStart < r'.refEnd) →
    ∃ fb' rs', finelyAlign p nb ref deg w fb rs = .ok (fb', rs') ∧ ∀ r ∈ rs', r.refStart < r.refEnd
  | [], fb, _ => ⟨fb, [], rfl, by simp⟩
  | r :: rs, fb, h => by
    obtain ⟨f1, r1, h1, h2⟩ := h r (by simp) fb
    obtain ⟨f2, rs2, h3, h4⟩ := finelyAlign_total p rs f1 (fun q hq => h q (by simp [hq]))
    refine ⟨f2, r1 :: rs2, ?_, ?_⟩
    · unfold finelyAlign
      rw [h1]
      simp only [ok_bind]
      rw [h3]
      rfl
    · intro q hq
      rcases List.mem_cons.mp hq with rfl | hq
      · exact h2
      · exact h4 q hq

section any
variable {F : Type} [Flt F]

theorem addBands_total {acc v : List F} (h : acc.length ≤ v.length) : ∃ r, addBands acc v = .ok r := by
  unfold addBands
  apply mapE_total
  rintro ⟨x, i⟩ hx
  obtain ⟨_, h2, _⟩ := List.mem_zipIdx hx
  dsimp only
  rw [idx_of_lt (by omega)]
  exact ⟨_, rfl⟩

theorem foldE_total {α σ : Type} {f : σ → α → M σ} (P : σ → Prop) : ∀ {l : List α} {s : σ},
    (∀ a ∈ l, ∀ t, P t → ∃ t', f t a = .ok t' ∧ P t') → P s → ∃ s', foldE f s l = .ok s' ∧ P s'
  | [], s, _, h => ⟨s, rfl, h⟩
  | a :: l, s, hs, h => by
    obtain ⟨t, h1, h2⟩ := hs a (by simp) s h
    obtain ⟨t', h3, h4⟩ := foldE_total P (l := l) (fun x hx => hs x (by simp [hx])) h2
    refine ⟨t', ?_, h4⟩
    simp only [foldE, h1, ok_bind, h3]

theorem perPatchMean_total {sel : PatchSim F → List F} {ps : List (PatchSim F)} {nb : Nat} (hne : ps ≠ [])
    (hm : ∀ q ∈ ps, q.freqBandMeans.length = nb) (hs : ∀ q ∈ ps, (sel q).length = nb) :
    ∃ v, perPatchMean sel ps = .ok v ∧ v.length = nb := by
  have hl := List.length_pos_iff.mpr hne
  unfold perPatchMean
  rw [idx_of_lt hl]
  simp only [ok_bind]
  rw [hm _ (List.getElem_mem hl)]
  obtain ⟨t, h1, h2⟩ := foldE_total (f := fun acc q => addBands acc (sel q)) (l := ps) (s := List.replicate nb 0.0)
    (fun l : List F => l.length = nb) (by
      intro q hq acc hacc
      obtain ⟨r, hr⟩ := addBands_total (acc := acc) (v := sel q) (by rw [hs q hq]; omega)
      exact ⟨r, hr, (addBands_ok hr).1.trans hacc⟩) (by simp)
  rw [h1]
  exact ⟨_, rfl, by simpa using h2⟩

end any

theorem one_le_toUsize_ceil {x : ℝ} (h : 0 < x) : 1 ≤ Flt.toUsize (Flt.ceil x) := by
  by_contra hc
  have := lt_of_toUsize_le (n := 0) (x := Flt.ceil x) (by omega) (by norm_num)
  rw [real_ceil] at this
  have h1 : (1 : ℤ) ≤ ⌈x⌉ := Int.one_le_ceil_iff.mpr h
  have h2 : (1 : ℝ) ≤ (⌈x⌉ : ℝ) := by exact_mod_cast h1
  simp at this
  linarith

theorem perPatchStdDevs_total (p : Profile) {ps : List (PatchSim ℝ)} {fd : ℝ} {nb : Nat} (hne : ps ≠ []) (hfd : 0 < fd)
    (hq : ∀ q ∈ ps, q.freqBandMeans.length = nb ∧ q.freqBandStddevs.length = nb) (ht : ∀ q ∈ ps, q.refStart < q.refEnd) :
    ∃ v, perPatchStdDevs p ps fd = .ok v := by
  have hl := List.length_pos_iff.mpr hne
  obtain ⟨f, hf, _⟩ := perPatchMean_total (sel := PatchSim.freqBandMeans) hne (fun q h => (hq q h).1) (fun q h => (hq q h).1)
  unfold perPatchStdDevs
  rw [hf]
  simp only [ok_bind]
  rw [idx_of_lt hl]
  simp only [ok_bind]
  rw [(hq _ (List.getElem_mem hl)).1]
  obtain ⟨⟨c, t⟩, h1, _⟩ := foldE_total (f := stdContribution p fd) (l := ps) (s := (List.replicate nb 0.0, 0))
    (fun s : List ℝ × Nat => s.1.length = nb) (by
      intro q hqm s hs
      have hfc : 1 ≤ Flt.toUsize (Flt.ceil ((q.refEnd - q.refStart) / fd)) :=
        one_le_toUsize_ceil (div_pos (by linarith [ht q hqm]) hfd)
      have key : ∃ s', stdContribution p fd s q = .ok s' := by
        unfold stdContribution
        dsimp only
        obtain ⟨r, hr⟩ : ∃ r, mapE (fun (x : ℝ × Nat) => do
            let dev ← idx q.freqBandStddevs x.2
            let mean ← idx q.freqBandMeans x.2
            let fm ← usub p (Flt.toUsize (Flt.ceil ((q.refEnd - q.refStart) / fd))) 1
            .ok (x.1 + Flt.ofNat fm * dev * dev +
              Flt.ofNat (Flt.toUsize (Flt.ceil ((q.refEnd - q.refStart) / fd))) * mean * mean)) s.1.zipIdx = .ok r := by
          apply mapE_total
          rintro ⟨x, i⟩ hx
          obtain ⟨_, h2, _⟩ := List.mem_zipIdx hx
          have := hq q hqm
          dsimp only
          rw [idx_of_lt (by omega), idx_of_lt (by omega), usub_of_le hfc]
          exact ⟨_, rfl⟩
        rw [hr]
        exact ⟨_, rfl⟩
      obtain ⟨s', hs'⟩ := key
      exact ⟨s', hs', (stdContribution_length hs').trans hs⟩) (by simp)
  rw [h1]
  exact ⟨_, rfl⟩

end Visqol
