import Verif.Props.Drift
import Verif.Props.NoFailureIeee

/-! # Reported times and analysed samples in floating point (C53, C62) -/

set_option linter.unusedSectionVars false

namespace Visqol
open Ieee
variable {F : Type} [Flt F] [Ieee F]

/-- Columns of a spectrogram lie within the signal, up to the drift. -/
theorem column_bound {sr i len : Nat} (hsr : sr < 4294967296) (h4 : 4 ≤ windowSamples sr)
    (hi : i < numColumns len (windowSamples sr) (windowSamples sr / 4)) (hlen : len < 2 ^ 32) : i * windowSamples sr ≤ 2 ^ 35 := by
  unfold numColumns at hi
  have h1 : i ≤ (len - windowSamples sr) / (windowSamples sr / 4) := by omega
  have h2 : i * (windowSamples sr / 4) ≤ len - windowSamples sr :=
    (Nat.mul_le_mul_right _ h1).trans (Nat.div_mul_le_self _ _)
  have h3 : i ≤ len := h1.trans ((Nat.div_le_self _ _).trans (Nat.sub_le _ _))
  have h5 : i * windowSamples sr = 4 * (i * (windowSamples sr / 4)) + i * (windowSamples sr % 4) := by
    conv_lhs => rw [← Nat.div_add_mod (windowSamples sr) 4]
    ring
  have h6 : i * (windowSamples sr % 4) ≤ i * 3 := Nat.mul_le_mul_left _ (by omega)
  omega

/-- A product with a number is close to the product with what it approximates. -/
theorem Rel.scaled {a : F} {x e c : ℝ} (h : Rel a x e) (hc : 0 ≤ c) : ∃ y, val a = .fin y ∧ |y * c - x * c| ≤ e * (x * c) := by
  obtain ⟨_, y, hy, he⟩ := h
  refine ⟨y, hy, ?_⟩
  rw [← sub_mul, abs_mul, abs_of_nonneg hc, ← mul_assoc]
  exact mul_le_mul_of_nonneg_right he hc

/-- A successful slice starts inside the signal. -/
theorem sliceSignal_inside_ieee {s out : AudioSignal F} {a b : F} (h : sliceSignal s a b = .ok out) {X : ℕ}
    (hr : Rel (a * Flt.ofNat s.sampleRate) ((X : ℝ) / 4) (1 / 2 ^ 47)) (hX : X ≤ 2 ^ 35) : X / 4 ≤ s.data.length + 1 := by
  unfold sliceSignal at h
  obtain ⟨d, hd, _⟩ := bind_ok h
  obtain ⟨h1, _, _⟩ := sliceM_ok hd
  have hXr : (X : ℝ) ≤ 34359738368 := by exact_mod_cast hX
  obtain ⟨n, n1, _, n3⟩ := toUsize_rel hr (by norm_num only; linarith only [hXr]) (by norm_num) (by norm_num) (1 / 4) (by
    linarith only [hXr])
  rw [n1] at h1
  have h2 : n ≤ s.data.length := h1.trans (min_le_right _ _)
  have h3 : (n : ℝ) ≤ s.data.length := by exact_mod_cast h2
  have h4 : (X : ℝ) < ((4 * s.data.length + 5 : ℕ) : ℝ) := by push_cast; linarith
  have := Nat.cast_lt.mp h4
  omega

variable [RustFft F]

/-- C53 in floating point: in a successful comparison, coarse patch `k` consists of the columns of the reference spectrogram from some
column `i` on, which are computed from the samples from `i * (W / 4)` on (division rounding down, `W` samples in a window); and the
time at which the patch is reported to start is, in samples, `i * W / 4` without rounding down, up to a relative error of `2^-47`. -/
theorem C53_drift_rounded {p : Profile} {m m' : Manager F} {ref deg : AudioSignal F} {res : SimilarityResult F}
    (h : m.computeResults p ref deg = .ok (m', res)) (h50 : 50 ≤ ref.sampleRate) (hu32 : ref.sampleRate < 4294967296)
    (hlen : ref.data.length + deg.data.length < 2147483648) :
    ∃ al, ∃ st : Stages p m.numBands m.filterBank ref al (AnalysisWindow.mk' ref.sampleRate 0.25 0.08) m.patchCreator
        m.mapper m.searchWindow res, (AnalysisWindow.mk' (F := F) ref.sampleRate 0.25 0.08).hop = windowSamples ref.sampleRate / 4 ∧
      ∀ (k : Nat) r, st.coarse[k]? = some r → ∃ i x, st.ix[k]? = some i ∧
      st.patches[k]? = some ⟨m.patchCreator.patchSize, st.refM.rows.map fun r => (r.drop i).take m.patchCreator.patchSize⟩ ∧
      val r.refStart = .fin x ∧
      |x * ref.sampleRate - ((i * (windowSamples ref.sampleRate / 4) : ℕ) + i * (windowSamples ref.sampleRate % 4 : ℕ) / 4)| ≤
        1 / 2 ^ 47 * (i * windowSamples ref.sampleRate / 4) := by
  obtain ⟨f1, f2, f3⟩ := ieee_window_facts (F := F) h50 hu32
  obtain ⟨al, lag, hal, ⟨st⟩⟩ := computeResults_stages h
  refine ⟨al, st, f2, fun k r hr => ?_⟩
  obtain ⟨w1, w2, _, _, h5, h6⟩ := st.shapes
  obtain ⟨c1, c2⟩ := createPatches_ok st.created w1
  have hlal := globallyAlign_length hal
  rw [f1, f2] at h5 h6
  have hcr := @numColumns_le ref.data.length (windowSamples ref.sampleRate) (windowSamples ref.sampleRate / 4)
  have hcd := @numColumns_le al.data.length (windowSamples ref.sampleRate) (windowSamples ref.sampleRate / 4)
  obtain ⟨_, ⟨i, hi, e⟩, _⟩ := C52_coarse_times st.found c1 (fun q hq => (c2 q hq).2.2) w2 (lt_usizeMod (by omega)) k r hr
  obtain ⟨g1, g2⟩ := createPatches_get st.created hi
  have hW2 : windowSamples ref.sampleRate ≤ 2 ^ 30 := by unfold windowSamples; omega
  have hb := column_bound (sr := ref.sampleRate) (i := i - 1) (len := ref.data.length) hu32 f3 (by
    have : 0 < numColumns ref.data.length (windowSamples ref.sampleRate) (windowSamples ref.sampleRate / 4) := by
      unfold numColumns; exact Nat.lt_of_lt_of_le Nat.one_pos (Nat.le_add_right _ _)
    omega) (by omega)
  have hb2 : i * windowSamples ref.sampleRate ≤ 2 ^ 36 := by
    have : i ≤ (i - 1) + 1 := by omega
    have := Nat.mul_le_mul_right (windowSamples ref.sampleRate) this
    rw [Nat.add_mul] at this
    omega
  obtain ⟨_, t2, _⟩ := frame_times (F := F) (W := windowSamples ref.sampleRate) (sr := ref.sampleRate) (o := i) (k := 0) (by omega) (by omega) hu32
    (by rw [Nat.add_zero]; omega) (by omega) (by omega) rfl
  obtain ⟨x, hx1, hx2⟩ := t2.scaled (c := (ref.sampleRate : ℝ)) (by positivity)
  refine ⟨i, x, hi, g1, ?_, ?_⟩
  · rw [e, f1]; exact hx1
  · have hsr : (ref.sampleRate : ℝ) ≠ 0 := by
      have : ref.sampleRate ≠ 0 := by omega
      exact_mod_cast this
    have e1 : ((i * windowSamples ref.sampleRate : ℕ) : ℝ) / (4 * ref.sampleRate : ℕ) * ref.sampleRate =
        (i * (windowSamples ref.sampleRate / 4) : ℕ) + i * (windowSamples ref.sampleRate % 4 : ℕ) / 4 := by
      have hd : (windowSamples ref.sampleRate : ℝ) = 4 * (windowSamples ref.sampleRate / 4 : ℕ) + (windowSamples ref.sampleRate % 4 : ℕ) := by
        exact_mod_cast (Nat.div_add_mod (windowSamples ref.sampleRate) 4).symm
      push_cast
      field_simp
      rw [hd]
    have e2 : ((i * windowSamples ref.sampleRate : ℕ) : ℝ) / (4 * ref.sampleRate : ℕ) * ref.sampleRate = i * windowSamples ref.sampleRate / 4 := by
      push_cast
      field_simp
    rw [← e1, ← e2]
    exact hx2

/-- C62 in floating point: in every successful comparison the reported (coarse) start of every patch that has a match lies, counted in
unrounded quarter windows, inside the reference, and that of its match inside the degraded signal, up to one sample. -/
theorem C62_rounded {p : Profile} {m m' : Manager F} {ref deg : AudioSignal F} {res : SimilarityResult F}
    (h : m.computeResults p ref deg = .ok (m', res)) (h50 : 50 ≤ ref.sampleRate) (hu32 : ref.sampleRate < 4294967296)
    (hsr : ref.sampleRate = deg.sampleRate) (hpp : 0 < m.patchCreator.patchSize)
    (hlen : ref.data.length + deg.data.length < 2147483648) :
    ∃ al lag, globallyAlign p ref deg = .ok (some (al, lag)) ∧
      ∃ st : Stages p m.numBands m.filterBank ref al (AnalysisWindow.mk' ref.sampleRate 0.25 0.08) m.patchCreator
        m.mapper m.searchWindow res, ∀ (k : Nat) r, st.coarse[k]? = some r →
      Unmatched r ∨ ∃ i o x, st.ix[k]? = some i ∧ o < st.degM.ncols ∧
        (i * windowSamples ref.sampleRate) / 4 ≤ ref.data.length + 1 ∧
        val r.degStart = .fin x ∧ |x * ref.sampleRate - o * windowSamples ref.sampleRate / 4| ≤ 1 / 2 ^ 47 * (o * windowSamples ref.sampleRate / 4) ∧
        (o * windowSamples ref.sampleRate) / 4 ≤ al.data.length + 1 := by
  obtain ⟨f1, f2, f3⟩ := ieee_window_facts (F := F) h50 hu32
  obtain ⟨al, lag, hal, ⟨st⟩⟩ := computeResults_stages h
  refine ⟨al, lag, hal, st, fun k r hr => ?_⟩
  obtain ⟨w1, w2, _, _, h5, h6⟩ := st.shapes
  obtain ⟨c1, c2⟩ := createPatches_ok st.created w1
  have hlal := globallyAlign_length hal
  have hals := (C39_only_shifts hal).1
  rw [f1, f2] at h5 h6
  have hcr := @numColumns_le ref.data.length (windowSamples ref.sampleRate) (windowSamples ref.sampleRate / 4)
  have hcd := @numColumns_le al.data.length (windowSamples ref.sampleRate) (windowSamples ref.sampleRate / 4)
  obtain ⟨e1, ⟨i, hi, e⟩, e3⟩ := C52_coarse_times st.found c1 (fun q hq => (c2 q hq).2.2) w2 (lt_usizeMod (by omega)) k r hr
  rcases e3 with e3 | ⟨⟨o, ho, e4⟩, e5⟩
  · exact .inl e3
  right
  obtain ⟨_, hf⟩ := finelyAlign_each st.fine
  obtain ⟨f, f', r', hp, _, _⟩ := hf k r hr
  obtain ⟨g1, g2⟩ := createPatches_get st.created hi
  have hi' : i < st.refM.ncols := by omega
  rw [h5] at hi'
  have hW2 : windowSamples ref.sampleRate ≤ 2 ^ 30 := by unfold windowSamples; omega
  have hbi := column_bound hu32 f3 hi' (by omega)
  have ho' := ho
  rw [h6] at ho'
  have hbo := column_bound hu32 f3 ho' (by omega)
  have hbp : m.patchCreator.patchSize * windowSamples ref.sampleRate ≤ 2 ^ 36 := by
    have := column_bound (i := m.patchCreator.patchSize - 1) hu32 f3 (by omega : _ < numColumns ref.data.length (windowSamples ref.sampleRate) (windowSamples ref.sampleRate / 4)) (by omega)
    have h2 : m.patchCreator.patchSize = m.patchCreator.patchSize - 1 + 1 := by omega
    rw [h2, Nat.add_mul]
    omega
  obtain ⟨_, _, _, ti, _⟩ := frame_times (F := F) (W := windowSamples ref.sampleRate) (sr := ref.sampleRate) (o := i) (k := 0) (by omega) (by omega) hu32
    (by rw [Nat.add_zero]; omega) (by omega) (by omega) rfl
  obtain ⟨_, to1, to2, to3, _⟩ := frame_times (F := F) (W := windowSamples ref.sampleRate) (sr := ref.sampleRate) (o := o) (k := m.patchCreator.patchSize) (by omega) (by omega) hu32
    (by rw [Nat.add_mul]; omega) (by omega) (by omega) rfl
  have hov : (AnalysisWindow.mk' (F := F) ref.sampleRate 0.25 0.08).overlap = 0.25 := rfl
  rw [f1, hov] at e e4 e5 e1
  have hsr0 : (0 : ℝ) < ref.sampleRate := by
    have : 0 < ref.sampleRate := by omega
    exact_mod_cast this
  -- a match is not reported as an interval without extent
  have hne : Flt.eq r.degStart r.degEnd = false := by
    obtain ⟨_, x, hx1, hx2⟩ := to1
    obtain ⟨_, y, hy1, hy2⟩ := to2
    have hx1 : Is r.degStart x := by rw [e4]; exact hx1
    have hy1 : Is r.degEnd y := by rw [e5, e4]; exact hy1
    rw [Is.eq hx1 hy1, decide_eq_false_iff_not]
    intro hxy
    subst hxy
    have a1 := abs_le.mp hx2
    have a2 := abs_le.mp hy2
    have hd0 : (0 : ℝ) < (4 * ref.sampleRate : ℕ) := by push_cast; positivity
    generalize ((4 * ref.sampleRate : ℕ) : ℝ) = D at *
    have hX : ((o * windowSamples ref.sampleRate : ℕ) : ℝ) ≤ 2 ^ 35 := by exact_mod_cast hbo
    have hY : (((o + m.patchCreator.patchSize) * windowSamples ref.sampleRate : ℕ) : ℝ) ≤ 2 ^ 37 := by
      have : (o + m.patchCreator.patchSize) * windowSamples ref.sampleRate ≤ 2 ^ 37 := by rw [Nat.add_mul]; omega
      exact_mod_cast this
    have hXY : ((o * windowSamples ref.sampleRate : ℕ) : ℝ) + 1 ≤ (((o + m.patchCreator.patchSize) * windowSamples ref.sampleRate : ℕ) : ℝ) := by
      have : o * windowSamples ref.sampleRate + 1 ≤ (o + m.patchCreator.patchSize) * windowSamples ref.sampleRate := by
        rw [Nat.add_mul]
        have := Nat.mul_pos hpp (by omega : 0 < windowSamples ref.sampleRate)
        omega
      exact_mod_cast this
    generalize ((o * windowSamples ref.sampleRate : ℕ) : ℝ) = X at *
    generalize (((o + m.patchCreator.patchSize) * windowSamples ref.sampleRate : ℕ) : ℝ) = Y at *
    have a3 : Y / D - X / D ≤ 1 / 2 ^ 47 * (X / D) + 1 / 2 ^ 47 * (Y / D) := by linarith [a1.2, a2.1]
    have a4 : Y - X ≤ 1 / 2 ^ 47 * X + 1 / 2 ^ 47 * Y := by
      have := mul_le_mul_of_nonneg_right a3 hd0.le
      have h1 : (Y / D - X / D) * D = Y - X := by field_simp
      have h2 : (1 / 2 ^ 47 * (X / D) + 1 / 2 ^ 47 * (Y / D)) * D = 1 / 2 ^ 47 * X + 1 / 2 ^ 47 * Y := by field_simp
      rwa [h1, h2] at this
    norm_num at a4 hX hY
    linarith
  unfold finelyAlignPatch at hp
  rw [hne, Bool.false_and, if_neg (by simp)] at hp
  obtain ⟨ra, s1, hp⟩ := bind_ok hp
  obtain ⟨da, s2, _⟩ := bind_ok hp
  have q1 := sliceSignal_inside_ieee s1 (X := i * windowSamples ref.sampleRate) (by rw [e]; exact ti) hbi
  have hds : (scaleToMatchSpl ref al).sampleRate = ref.sampleRate := by
    show al.sampleRate = _
    omega
  have q2 := sliceSignal_inside_ieee s2 (X := o * windowSamples ref.sampleRate) (by rw [e4, hds]; exact to3) hbo
  have e9 : (scaleToMatchSpl ref al).data.length = al.data.length := by show (List.map _ _).length = _; rw [List.length_map]
  rw [e9] at q2
  obtain ⟨x, hx1, hx2⟩ := to1.scaled (c := (ref.sampleRate : ℝ)) hsr0.le
  refine ⟨i, o, x, hi, ho, q1, by rw [e4]; exact hx1, ?_, q2⟩
  have e2 : ((o * windowSamples ref.sampleRate : ℕ) : ℝ) / (4 * ref.sampleRate : ℕ) * ref.sampleRate = o * windowSamples ref.sampleRate / 4 := by
    push_cast
    field_simp
  rw [← e2]
  exact hx2

/-- A fullband manager in double precision. -/
noncomputable def drift64 : Manager B64 := ⟨32, 60, .image 20, .svr ⟨32, fun _ => some (some 3.0)⟩, FilterBank.new 32 50.0⟩

theorem drift64_run (p : Profile) : ∃ m' res, drift64.computeResults p
    ⟨(onset B64 0 40000).data, 11025⟩ ⟨(onset B64 1000 40000).data, 11025⟩ = .ok (m', res) ∧ FiniteScores res := by
  refine C74_fullband_finite p _ rfl (by unfold drift64; norm_num) (by unfold drift64; norm_num) rfl (fun v hv ha => ?_) rfl (by norm_num) (by norm_num) ?_
    (onset_ordinary (F := B64) 0 40000) (onset_ordinary (F := B64) 1000 40000) (onset_sound (F := B64) ?_ ?_) ?_ ?_ ?_ ?_ ?_ ?_
  · refine ⟨Flt.clamp 3.0 1.0 5.0, ?_, ?_⟩
    · show (svrPredict _ v >>= _) = _
      unfold svrPredict
      have hv : v.length = 32 := hv
      rw [if_neg (by show ¬ 32 < _; omega)]
      rfl
    · obtain ⟨y, hy, _⟩ := clamp_num (x := (3.0 : B64)) (by
        have := val_litnat (F := B64) (m := 30) (e := 1) (k := 3) (by norm_num) (by norm_num)
        rw [this]; exact fun h => by cases h)
      rw [hy]; exact fun h => by cases h
  all_goals try simp only [onset_length]
  all_goals try unfold SmallDrift
  all_goals try unfold columnCount
  all_goals try unfold windowSamples
  all_goals try unfold drift64
  all_goals norm_num

/-- The hypotheses of `C53_drift_rounded` and `C62_rounded`: 3.6 s at 11025 Hz, where the window of 882 samples is not a multiple of four,
in double precision. -/
example (p : Profile) : ∃ m' res, drift64.computeResults p
    ⟨(onset B64 0 40000).data, 11025⟩ ⟨(onset B64 1000 40000).data, 11025⟩ = .ok (m', res) ∧ windowSamples 11025 % 4 = 2 := by
  obtain ⟨m', res, h1, _⟩ := drift64_run p
  exact ⟨m', res, h1, by decide⟩

end Visqol
