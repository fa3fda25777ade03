import Verif.Props.Match

/-! # Reported times and analysed samples (C53, C62)

A column of the spectrogram starts `hop` samples after the previous one, where `hop` is a quarter of the window rounded down; a
patch that starts at column `i` is reported to start at `i` times a quarter of the window, not rounded. -/

set_option linter.unusedSectionVars false

namespace Visqol

section
variable {F : Type} [Flt F] [RustFft F]

theorem finelyAlign_each {p : Profile} {nb : Nat} {ref deg : AudioSignal F} {w : AnalysisWindow F} :
    ∀ {rs rs' : List (PatchSim F)} {fb fb' : FilterBank F}, finelyAlign p nb ref deg w fb rs = .ok (fb', rs') →
      rs'.length = rs.length ∧ ∀ (k : Nat) r, rs[k]? = some r → ∃ f f' r', finelyAlignPatch p nb ref deg w f r = .ok (f', r') ∧
        rs'[k]? = some r' ∧ f.minFreq = fb.minFreq
  | [], rs', fb, fb', h => by cases h; exact ⟨rfl, fun k r hr => by simp at hr⟩
  | r :: rs, rs', fb, fb', h => by
    unfold finelyAlign at h
    obtain ⟨⟨f1, r1⟩, h1, h⟩ := bind_ok h
    obtain ⟨⟨f2, rs2⟩, h2, h⟩ := bind_ok h
    cases h
    obtain ⟨e0, e⟩ := finelyAlign_each h2
    refine ⟨by simp [e0], fun k q hq => ?_⟩
    cases k with
    | zero => cases hq; exact ⟨fb, f1, r1, h1, rfl, rfl⟩
    | succ k =>
      obtain ⟨f, f', r', e1, e2, e3⟩ := e k q hq
      exact ⟨f, f', r', e1, e2, e3.trans (finelyAlignPatch_minFreq h1)⟩

/-- A created patch is a stretch of columns. -/
theorem createPatches_get {n : Nat} {m : Mat F} {ix : List Nat} {ps : List (Mat F)} (h : createPatches n m ix = .ok ps)
    {k i : Nat} (hk : ix[k]? = some i) : ps[k]? = some ⟨n, m.rows.map fun r => (r.drop i).take n⟩ ∧ i + n ≤ m.ncols := by
  obtain ⟨b, h1, h2⟩ := mapE_ok_get h hk
  unfold Mat.sliceCols at h1
  split at h1
  · rename_i hh
    cases h1
    rw [Nat.add_sub_cancel_left] at h2
    exact ⟨h2, hh.2⟩
  · cases h1

end

/-- Frame times in exact arithmetic. -/
theorem frame_time {w : AnalysisWindow ℝ} (ho : w.overlap = 0.25) (hs : w.size < 18446744073709551616) {sr : Nat} (h0 : 0 < sr)
    (i : Nat) : (Flt.ofNat i * (Flt.ofNat w.size * w.overlap / Flt.ofNat sr) : ℝ) * sr = (i * w.hop : ℕ) + i * (w.size % 4 : ℕ) / 4 := by
  rw [hop_quarter ho hs, ho]
  have hsr : (sr : ℝ) ≠ 0 := by exact_mod_cast h0.ne'
  have hd : (w.size : ℝ) = 4 * (w.size / 4 : ℕ) + (w.size % 4 : ℕ) := by exact_mod_cast (Nat.div_add_mod w.size 4).symm
  simp only [real_ofNat]
  push_cast
  norm_num
  field_simp
  rw [hd]

/-- C53: in a successful comparison, coarse patch `k` consists of the columns of the reference spectrogram from some column `i` on;
these are computed from the samples from `i * hop` on; and the time at which the patch is reported to start is, in samples,
`i * hop + i * (W mod 4) / 4`, where `W` is the window size. -/
theorem C53_drift {p : Profile} {m m' : Manager ℝ} {ref deg : AudioSignal ℝ} {res : SimilarityResult ℝ}
    (h : m.computeResults p ref deg = .ok (m', res)) (h0 : 0 < ref.sampleRate)
    (hs : (AnalysisWindow.mk' (F := ℝ) ref.sampleRate 0.25 0.08).size < 18446744073709551616)
    (hlen : ref.data.length + deg.data.length < 9223372036854775808) :
    ∃ al, ∃ st : Stages p m.numBands m.filterBank ref al (AnalysisWindow.mk' ref.sampleRate 0.25 0.08) m.patchCreator
        m.mapper m.searchWindow res, ∀ (k : Nat) r, st.coarse[k]? = some r → ∃ i, st.ix[k]? = some i ∧
      st.patches[k]? = some ⟨m.patchCreator.patchSize, st.refM.rows.map fun r => (r.drop i).take m.patchCreator.patchSize⟩ ∧
      r.refStart * ref.sampleRate = (i * (AnalysisWindow.mk' (F := ℝ) ref.sampleRate 0.25 0.08).hop : ℕ) +
        i * ((AnalysisWindow.mk' (F := ℝ) ref.sampleRate 0.25 0.08).size % 4 : ℕ) / 4 := by
  obtain ⟨al, lag, hal, ⟨st⟩⟩ := computeResults_stages h
  refine ⟨al, st, fun k r hr => ?_⟩
  obtain ⟨w1, w2, _, _, h5, h6⟩ := st.shapes
  obtain ⟨c1, c2⟩ := createPatches_ok st.created w1
  have hlal := globallyAlign_length hal
  have hnc : st.degM.ncols < usizeMod := by
    rw [h6]
    have := @numColumns_le al.data.length (AnalysisWindow.mk' (F := ℝ) ref.sampleRate 0.25 0.08).size
      (AnalysisWindow.mk' (F := ℝ) ref.sampleRate 0.25 0.08).hop
    unfold usizeMod; omega
  obtain ⟨_, ⟨i, hi, e⟩, _⟩ := C52_coarse_times st.found c1 (fun q hq => (c2 q hq).2.2) w2 hnc k r hr
  refine ⟨i, hi, (createPatches_get st.created hi).1, ?_⟩
  rw [e]
  exact frame_time rfl hs h0 i

/-- C53: the reported start of the patch that starts at column `i` is the time of its first analysed sample exactly if the window size
is a multiple of 4 (or the patch is at the very start of the file, which no patch creator produces). -/
theorem C53_exact_iff {w : AnalysisWindow ℝ} (ho : w.overlap = 0.25) (hs : w.size < 18446744073709551616) {sr : Nat} (h0 : 0 < sr)
    (i : Nat) : (Flt.ofNat i * (Flt.ofNat w.size * w.overlap / Flt.ofNat sr) : ℝ) = ((i * w.hop : ℕ) : ℝ) / sr ↔
      i = 0 ∨ w.size % 4 = 0 := by
  have hsr : (sr : ℝ) ≠ 0 := by exact_mod_cast h0.ne'
  rw [eq_div_iff hsr, frame_time ho hs h0]
  constructor
  · intro h
    have h1 : (i : ℝ) * (w.size % 4 : ℕ) / 4 = 0 := by linarith
    have h2 : (i : ℝ) * (w.size % 4 : ℕ) = 0 := by linarith
    rcases mul_eq_zero.mp h2 with h3 | h3
    · left; exact_mod_cast h3
    · right; exact_mod_cast h3
  · rintro (rfl | h)
    · simp
    · rw [h]; simp

/-- C53 for the sample rate 11025 Hz (window 882 samples, hop 220): every patch but one at the very start is reported late. -/
example (i : Nat) (hi : 0 < i) : (Flt.ofNat i * (Flt.ofNat (AnalysisWindow.mk' (F := ℝ) 11025 0.25 0.08).size *
      (AnalysisWindow.mk' (F := ℝ) 11025 0.25 0.08).overlap / Flt.ofNat 11025) : ℝ) ≠
    ((i * (AnalysisWindow.mk' (F := ℝ) 11025 0.25 0.08).hop : ℕ) : ℝ) / (11025 : ℕ) := by
  have hW := window_size 11025 (by norm_num)
  rw [Ne, C53_exact_iff rfl (by rw [hW]; norm_num) (by norm_num), hW]
  omega

/-- C53 for the sample rates 8000, 16000, 22050, 32000, 44100 and 48000 Hz: the reported times are exact. -/
example (i sr : Nat) (h : sr ∈ [8000, 16000, 22050, 32000, 44100, 48000]) :
    (Flt.ofNat i * (Flt.ofNat (AnalysisWindow.mk' (F := ℝ) sr 0.25 0.08).size *
      (AnalysisWindow.mk' (F := ℝ) sr 0.25 0.08).overlap / Flt.ofNat sr) : ℝ) =
    ((i * (AnalysisWindow.mk' (F := ℝ) sr 0.25 0.08).hop : ℕ) : ℝ) / sr := by
  have h1 : 0 < sr ∧ sr < 50000 ∧ ((8 * sr + 50) / 100) % 4 = 0 := by
    simp only [List.mem_cons, List.not_mem_nil, or_false] at h
    omega
  have hW := window_size sr (by omega)
  exact (C53_exact_iff rfl (by rw [hW]; omega) h1.1 i).mpr (.inr (by rw [hW]; exact h1.2.2))

/-- A cast bounds its argument. -/
theorem lt_of_toUsize_le {x : ℝ} {n : Nat} (h : Flt.toUsize x ≤ n) (hn : n < 18446744073709551615) : x < n + 1 := by
  by_cases h0 : 0 ≤ x
  · by_cases h1 : x < 18446744073709551616
    · rw [real_toUsize_floor h0 h1] at h
      have := Nat.lt_floor_add_one x
      have h2 : ((⌊x⌋₊ : ℕ) : ℝ) ≤ n := by exact_mod_cast h
      linarith
    · exfalso
      have h2 : Flt.toUsize x = 18446744073709551615 := by
        show (realToInt 0 18446744073709551615 x).toNat = _
        unfold realToInt
        rw [realTrunc_nonneg h0]
        have h3 : (18446744073709551616 : ℤ) ≤ ⌊x⌋ := Int.le_floor.mpr (by exact_mod_cast not_lt.mp h1)
        rw [min_eq_left (by omega)]
        rfl
      omega
  · have : (0 : ℝ) ≤ n := Nat.cast_nonneg _
    linarith

/-- A successful slice starts inside the signal. -/
theorem sliceSignal_inside {s out : AudioSignal ℝ} {a b : ℝ} (h : sliceSignal s a b = .ok out)
    (hs : s.data.length < 18446744073709551615) : a * s.sampleRate < s.data.length + 1 := by
  unfold sliceSignal at h
  obtain ⟨d, hd, _⟩ := bind_ok h
  obtain ⟨h1, _, _⟩ := sliceM_ok hd
  exact lt_of_toUsize_le (n := s.data.length) (h1.trans (min_le_right _ _)) hs

/-- C62: in every successful comparison the reported (coarse) start of every patch that has a match lies inside the reference,
and the reported start of its match inside the degraded signal - so a file in which the drift of C53 carries the time of a matched
patch past its end cannot be scored. -/
theorem C62_starts_inside {p : Profile} {m m' : Manager ℝ} {ref deg : AudioSignal ℝ} {res : SimilarityResult ℝ}
    (h : m.computeResults p ref deg = .ok (m', res)) (h0 : 0 < ref.sampleRate) (hpp : 0 < m.patchCreator.patchSize)
    (hlen : ref.data.length + deg.data.length < 9223372036854775808) :
    ∃ al lag, globallyAlign p ref deg = .ok (some (al, lag)) ∧
      ∃ st : Stages p m.numBands m.filterBank ref al (AnalysisWindow.mk' ref.sampleRate 0.25 0.08) m.patchCreator
        m.mapper m.searchWindow res, ∀ (k : Nat) r, st.coarse[k]? = some r →
      Unmatched r ∨ ∃ i o, st.ix[k]? = some i ∧ o < st.degM.ncols ∧
        (i * (AnalysisWindow.mk' (F := ℝ) ref.sampleRate 0.25 0.08).size) / 4 ≤ ref.data.length ∧
        r.degStart = o * ((AnalysisWindow.mk' (F := ℝ) ref.sampleRate 0.25 0.08).size / 4 / ref.sampleRate) ∧
        r.degStart * al.sampleRate < al.data.length + 1 := by
  obtain ⟨al, lag, hal, ⟨st⟩⟩ := computeResults_stages h
  refine ⟨al, lag, hal, st, fun k r hr => ?_⟩
  obtain ⟨w1, w2, _, _, h5, h6⟩ := st.shapes
  obtain ⟨c1, c2⟩ := createPatches_ok st.created w1
  have hlal := globallyAlign_length hal
  have hnc : st.degM.ncols < usizeMod := by
    rw [h6]
    have := @numColumns_le al.data.length (AnalysisWindow.mk' (F := ℝ) ref.sampleRate 0.25 0.08).size
      (AnalysisWindow.mk' (F := ℝ) ref.sampleRate 0.25 0.08).hop
    unfold usizeMod; omega
  obtain ⟨e1, ⟨i, hi, e⟩, e3⟩ := C52_coarse_times st.found c1 (fun q hq => (c2 q hq).2.2) w2 hnc k r hr
  rcases e3 with e3 | ⟨⟨o, ho, e4⟩, e5⟩
  · exact .inl e3
  · right
    obtain ⟨_, hf⟩ := finelyAlign_each st.fine
    obtain ⟨f, f', r', hp, _, _⟩ := hf k r hr
    have hfd : (0 : ℝ) < Flt.ofNat (AnalysisWindow.mk' (F := ℝ) ref.sampleRate 0.25 0.08).size *
        (AnalysisWindow.mk' (F := ℝ) ref.sampleRate 0.25 0.08).overlap / Flt.ofNat ref.sampleRate := by
      have h1 := st.hsize
      have h2 : (0 : ℝ) < (AnalysisWindow.mk' (F := ℝ) ref.sampleRate 0.25 0.08).size := by exact_mod_cast h1
      have h3 : (0 : ℝ) < ref.sampleRate := by exact_mod_cast h0
      have h4 : (0 : ℝ) < (AnalysisWindow.mk' (F := ℝ) ref.sampleRate 0.25 0.08).overlap := by
        show (0 : ℝ) < Flt.toOfScientific.ofScientific 25 true 2
        simp only [real_sci]; norm_num
      simp only [real_ofNat]
      positivity
    have hfd2 : (Flt.ofNat (AnalysisWindow.mk' (F := ℝ) ref.sampleRate 0.25 0.08).size *
        (AnalysisWindow.mk' (F := ℝ) ref.sampleRate 0.25 0.08).overlap / Flt.ofNat ref.sampleRate : ℝ) =
        (AnalysisWindow.mk' (F := ℝ) ref.sampleRate 0.25 0.08).size / 4 / ref.sampleRate := by
      have : (AnalysisWindow.mk' (F := ℝ) ref.sampleRate 0.25 0.08).overlap = 1 / 4 := by
        show (Flt.toOfScientific.ofScientific 25 true 2 : ℝ) = _
        simp only [real_sci]; norm_num
      rw [this]
      simp only [real_ofNat]
      ring
    have hne : r.degStart ≠ r.degEnd := by
      rw [e5]
      have h1 : (0 : ℝ) < (m.patchCreator.patchSize : ℝ) := by exact_mod_cast hpp
      have := mul_pos hfd h1
      simp only [real_ofNat] at this ⊢
      linarith
    unfold finelyAlignPatch at hp
    rw [if_neg (by simp [hne])] at hp
    obtain ⟨ra, s1, hp⟩ := bind_ok hp
    obtain ⟨da, s2, _⟩ := bind_ok hp
    have q1 := sliceSignal_inside s1 (by omega)
    have q2 := sliceSignal_inside s2 (by show (List.map _ _).length < _; rw [List.length_map]; omega)
    refine ⟨i, o, hi, ho, ?_, ?_, ?_⟩
    · have h3 : (ref.sampleRate : ℝ) ≠ 0 := by exact_mod_cast h0.ne'
      have h4 : r.refStart * ref.sampleRate = ((i * (AnalysisWindow.mk' (F := ℝ) ref.sampleRate 0.25 0.08).size : ℕ) : ℝ) / 4 := by
        rw [e, hfd2]
        push_cast
        simp only [real_ofNat]
        field_simp
      rw [h4] at q1
      have h5 : ((i * (AnalysisWindow.mk' (F := ℝ) ref.sampleRate 0.25 0.08).size : ℕ) : ℝ) <
          ((4 * ref.data.length + 4 : ℕ) : ℝ) := by push_cast at q1 ⊢; linarith
      have h6 := Nat.cast_lt.mp h5
      generalize i * (AnalysisWindow.mk' (F := ℝ) ref.sampleRate 0.25 0.08).size = X at h6 ⊢
      omega
    · rw [e4, hfd2]; rfl
    · have e9 : (scaleToMatchSpl ref al).data.length = al.data.length := by show (List.map _ _).length = _; rw [List.length_map]
      rw [e9] at q2
      exact q2

end Visqol
