import Verif.Props.NoFailure
import Verif.Props.Cli
import Verif.Props.Bands
import Verif.Props.Loading
import Verif.Props.Manager
import Verif.Props.Optimal
import Verif.Props.Count

/-! # Runs that succeed

Concrete files, managers and command lines for which comparisons return a result, in both modes, so that the theorems about
successful comparisons are about something.  Each example names the theorems whose hypotheses it meets. -/

set_option linter.unusedSectionVars false

namespace Visqol

/-- A 16 kHz mono file of `n` equal samples. -/
def steadyFile (n : Nat) (z : Int) : WavContent := .wav 1 16000 16 (some (List.replicate n z))

/-- The signal loaded from it. -/
noncomputable def steadySignal (n : Nat) (z : Int) : AudioSignal ℝ := ⟨List.replicate n ((z : ℝ) / 32767), 16000⟩

theorem load_steady (n : Nat) {z : Int} (hz : IsI16 z) : loadAsMono (F := ℝ) (steadyFile n z) = .ok (steadySignal n z) := by
  obtain ⟨data, h1, h2, h3⟩ := C18_downmix_real 1 16000 n (List.replicate n z) (by decide)
    (fun x hx => by rw [List.eq_of_mem_replicate hx]; exact hz) (by simp)
  unfold steadyFile
  rw [h1]
  unfold steadySignal
  congr 2
  apply List.ext_getElem (by simp [h2])
  intro i hi1 hi2
  have := (h3 i (by omega)).1
  rw [List.getD_eq_getElem?_getD, List.getElem?_eq_getElem hi1] at this
  simpa [List.getElem?_replicate, (by omega : i < n)] using this

theorem toPcm_one : toPcm (1 : ℝ) = 32767 := by
  unfold toPcm
  have h1 : Flt.toI16 ((1 : ℝ) * Flt.ofInt 32768) = 32767 := by
    show max (-32768) (min 32767 (realTrunc _)) = _
    have : realTrunc ((1 : ℝ) * Flt.ofInt 32768) = 32768 := by
      unfold realTrunc
      simp only [real_ofInt, one_mul]
      rw [if_pos (by norm_num)]
      exact Int.floor_intCast 32768
    rw [this]; decide
  rw [h1]
  dsimp only
  have h2 : (Flt.min (Flt.max (Flt.ofInt (-32768)) (1.0 * Flt.ofInt 32767)) (Flt.ofInt 32767) : ℝ) = 32767 := by
    simp only [real_min, real_max, real_ofInt, real_lit1]
    norm_num
  rw [h2]
  show max (-32768) (min 32767 (realTrunc _)) = _
  have : realTrunc (32767 : ℝ) = 32767 := by
    unfold realTrunc
    rw [if_pos (by norm_num)]
    exact_mod_cast Int.floor_intCast (32767 : ℤ) (R := ℝ)
  rw [this]; decide

/-- The normalised signal of a positive steady file consists of ones. -/
theorem normalize_steady {n : Nat} (hn : 0 < n) {z : Int} (hz : 0 < z) :
    normalizeSignal (steadySignal n z).data = .ok (List.replicate n 1) := by
  unfold normalizeSignal steadySignal
  obtain ⟨m, h1, h2, _⟩ := extremum_max (l := List.replicate n ((z : ℝ) / 32767)) (by simp; omega)
  rw [h1]
  rw [List.eq_of_mem_replicate h2]
  have : (0 : ℝ) < (z : ℝ) / 32767 := by
    have : (0 : ℝ) < z := by exact_mod_cast hz
    positivity
  simp [expect, ok_bind, div_self this.ne']

/-- All its frames are loud. -/
theorem active_steady {n hop f : Nat} (hh : 0 < hop) (h : 14 + (f + 1) * hop ≤ n) :
    Active (List.replicate n (1 : ℝ)) hop f := by
  refine .inr (.inl ?_)
  unfold Loud
  have hj : judgedFrame (List.replicate n (1 : ℝ)) hop f = List.replicate hop 32767 := by
    unfold judgedFrame
    rw [List.drop_replicate, List.take_replicate, List.map_replicate, toPcm_one]
    congr 1
    rw [Nat.succ_mul] at h
    omega
  rw [hj, List.map_replicate, List.sum_replicate]
  have hp : (0 : ℝ) < hop := by exact_mod_cast hh
  simp only [real_lt, real_sqrt, real_ofInt, real_ofNat, nsmul_eq_mul]
  have : ((((hop : ℤ) * (32767 * 32767) : ℤ) : ℝ) / hop) = 32767 * 32767 := by
    push_cast; field_simp; norm_num
  rw [this, Real.sqrt_mul_self (by norm_num)]
  simp only [real_sci]
  norm_num

/-- Two readable files of different length and level, and one at another rate; every model path gives a model. -/
noncomputable def demoWorld : World ℝ where
  wav path := if path = "ref.wav" then steadyFile 40000 20000 else if path = "deg.wav" then steadyFile 41000 9000
    else if path = "long.wav" then steadyFile 80000 20000
    else if path = "8k.wav" then .wav 1 8000 16 (some (List.replicate 20000 1000)) else .unreadable
  svr _ := some ⟨32, fun _ => some (some 3.5)⟩

theorem steady_length (n : Nat) (z : Int) : (steadySignal n z).data.length = n := by simp [steadySignal]
theorem steady_ne {n : Nat} (h : n ≠ 0) (z : Int) : (steadySignal n z).data ≠ [] := by simp [steadySignal, h]
theorem steady_rate (n : Nat) (z : Int) : (steadySignal n z).sampleRate = 16000 := rfl
theorem window_16k : windowSamples 16000 = 1280 := by norm_num [windowSamples]
theorem columns_16k (n : Nat) : columnCount 16000 n = (n - 1280) / 320 + 1 := by unfold columnCount; rw [window_16k]
theorem drift_16k (n : Nat) : SmallDrift 16000 n := by unfold SmallDrift; rw [window_16k]; omega

theorem wideband_run (p : Profile) {a b : Nat} {x y : Int} (ha : 40000 ≤ a) (ha2 : a ≤ 80000) (hb : a ≤ b) (hb2 : b ≤ 90000)
    (hx : 0 < x) (hx2 : IsI16 x) (hy : IsI16 y) {world : World ℝ}
    {r d : String} (hr : world.wav r = steadyFile a x) (hd : world.wav d = steadyFile b y) {u : Bool} {m : Manager ℝ}
    (hm : Manager.new world 21 (.wideband u) 60 = .ok m) :
    (∃ m' res, m.computeResults p (steadySignal a x) (steadySignal b y) = .ok (m', res)) ∧
    ∃ m' res, m.run p world r d = .ok (m', res) := by
  have hm' : m = ⟨21, 60, .vad 30, .speech (!u), FilterBank.new 21 50.0⟩ := (Except.ok.inj hm).symm
  have key : ∃ m' res, m.computeResults p (steadySignal a x) (steadySignal b y) = .ok (m', res) := by
    subst hm'
    refine C63_wideband_succeeds p _ rfl (by norm_num) (fun v _ => ⟨_, rfl⟩) rfl ?_ ?_ ?_ ?_ ?_
      (normalize_steady (by omega) hx) (k := 1) (f := 30) (by decide) ?_ (by decide) (active_steady ?_ ?_) ?_ ?_ ?_ <;>
      simp only [steady_length, steady_rate, window_16k, columns_16k, drift_16k] <;> omega
  refine ⟨key, ?_⟩
  rw [C16_same_rate (ref := steadySignal a x) (deg := steadySignal b y) (hr ▸ load_steady a hx2) (hd ▸ load_steady b hy) rfl]
  exact key

theorem fullband_run (p : Profile) {a b : Nat} {x y : Int} (ha : 40000 ≤ a) (ha2 : a ≤ 80000) (hb : a ≤ b) (hb2 : b ≤ 90000)
    (hx2 : IsI16 x) (hy : IsI16 y) {world : World ℝ}
    {r d path : String} (hr : world.wav r = steadyFile a x) (hd : world.wav d = steadyFile b y) {m : Manager ℝ}
    (hmod : world.svr path = some ⟨32, fun _ => some (some 3.5)⟩)
    (hm : Manager.new world 32 (.fullband path) 60 = .ok m) :
    (∃ m' res, m.computeResults p (steadySignal a x) (steadySignal b y) = .ok (m', res)) ∧
    ∃ m' res, m.run p world r d = .ok (m', res) := by
  have hm' : m = ⟨32, 60, .image 20, .svr ⟨32, fun _ => some (some 3.5)⟩, FilterBank.new 32 50.0⟩ := by
    unfold Manager.new at hm
    simp only [hmod, expect, ok_bind] at hm
    exact (Except.ok.inj hm).symm
  have key : ∃ m' res, m.computeResults p (steadySignal a x) (steadySignal b y) = .ok (m', res) := by
    subst hm'
    refine C63_fullband_succeeds p _ rfl (by norm_num) (fun v hv => ?_) rfl ?_ ?_ ?_ ?_ ?_ ?_ ?_ ?_ ?_
    · refine ⟨Flt.clamp 3.5 1.0 5.0, ?_⟩
      have hv : v.length = 32 := hv
      show (svrPredict _ v >>= _) = _
      unfold svrPredict
      rw [if_neg (by show ¬ 32 < _; omega)]
      rfl
    all_goals simp only [steady_length, steady_rate, window_16k, columns_16k, drift_16k]
    all_goals omega
  refine ⟨key, ?_⟩
  rw [C16_same_rate (ref := steadySignal a x) (deg := steadySignal b y) (hr ▸ load_steady a hx2) (hd ▸ load_steady b hy) rfl]
  exact key

/-! ## Single comparisons -/

theorem demo_i16 : IsI16 20000 ∧ IsI16 9000 := by unfold IsI16; omega
theorem demo_ref : demoWorld.wav "ref.wav" = steadyFile 40000 20000 := by simp [demoWorld, -List.reduceReplicate]
theorem demo_deg : demoWorld.wav "deg.wav" = steadyFile 41000 9000 := by simp [demoWorld, -List.reduceReplicate]
theorem demo_long : demoWorld.wav "long.wav" = steadyFile 80000 20000 := by simp [demoWorld, -List.reduceReplicate]
theorem demo_8k : demoWorld.wav "8k.wav" = .wav 1 8000 16 (some (List.replicate 20000 1000)) := by simp [demoWorld, -List.reduceReplicate]

/-- The hypotheses of `C02_extremes`, `C05_shapes`, `C06_aggregates`, `C07_run_bounds`, `C10_run_std`, `C51_radius_overflow`,
`C53_drift`, `C57_patch_sizes`, `C62_starts_inside` and `C22_result` hold for a wideband comparison of two different signals. -/
example (p : Profile) : ∃ m m' res, Manager.new demoWorld 21 (.wideband false) 60 = .ok m ∧
    m.computeResults p (steadySignal 40000 20000) (steadySignal 41000 9000) = .ok (m', res) ∧
    (steadySignal 40000 20000).data.length + (steadySignal 41000 9000).data.length < 9223372036854775808 ∧
    0 < (steadySignal 40000 20000).sampleRate ∧ m.patchCreator.patchSize < 2147483648 ∧ 0 < m.patchCreator.patchSize ∧
    m.filterBank.minFreq = 50 ∧ 50 < upperLimit m.numBands (steadySignal 40000 20000).sampleRate := by
  obtain ⟨⟨m', res, h⟩, _⟩ := wideband_run p (le_refl 40000) (by omega) (by omega : 40000 ≤ 41000) (by omega)
    (by omega : (0 : Int) < 20000) demo_i16.1 demo_i16.2 demo_ref demo_deg (u := false) rfl
  refine ⟨_, m', res, rfl, h, ?_, ?_, ?_, ?_, ?_, ?_⟩
  · rw [steady_length, steady_length]; norm_num
  · rw [steady_rate]; norm_num
  · show 30 < _; norm_num
  · show 0 < 30; norm_num
  · show (Flt.toOfScientific.ofScientific 500 true 1 : ℝ) = _
    simp only [real_sci]; norm_num
  · rw [steady_rate]; show 50 < upperLimit 21 16000
    unfold upperLimit; norm_num

/-- The hypotheses of `C64_count`, and again those of the theorems above, hold for a fullband comparison. -/
example (p : Profile) : ∃ m m' res, Manager.new demoWorld 32 (.fullband "model.txt") 60 = .ok m ∧
    m.patchCreator = .image 20 ∧ m.computeResults p (steadySignal 40000 20000) (steadySignal 41000 9000) = .ok (m', res) ∧
    m.run p demoWorld "ref.wav" "deg.wav" = .ok (m', res) := by
  obtain ⟨⟨m', res, h⟩, _⟩ := fullband_run p (le_refl 40000) (by omega) (by omega : 40000 ≤ 41000) (by omega)
    demo_i16.1 demo_i16.2 demo_ref demo_deg (path := "model.txt") rfl rfl
  refine ⟨_, m', res, rfl, rfl, h, ?_⟩
  rw [C16_same_rate (ref := steadySignal 40000 20000) (deg := steadySignal 41000 9000) (demo_ref ▸ load_steady _ demo_i16.1)
    (demo_deg ▸ load_steady _ demo_i16.2) rfl]
  exact h

/-- The hypotheses of `C11_perfect`, `C11_mos_maximal`, `C04_result`, `C03_monotone` and `C05_shapes_run`: a file compared with
itself, and another comparison by the same manager. -/
example (p : Profile) : ∃ m m' res m'' res', Manager.new demoWorld 21 (.wideband false) 60 = .ok m ∧
    m.patchCreator = .vad 30 ∧ m.mapper = .speech true ∧
    (steadySignal 40000 20000).data.length + 30 * m.searchWindow < 2147483647 ∧
    m.computeResults p (steadySignal 40000 20000) (steadySignal 40000 20000) = .ok (m', res) ∧ res.vnsim = 1 ∧
    m.computeResults p (steadySignal 40000 20000) (steadySignal 41000 9000) = .ok (m'', res') ∧ res'.vnsim ≤ res.vnsim := by
  obtain ⟨⟨m', res, h⟩, _⟩ := wideband_run p (le_refl 40000) (by omega) (le_refl 40000) (by omega)
    (by omega : (0 : Int) < 20000) demo_i16.1 demo_i16.1 demo_ref demo_ref (u := false) rfl
  obtain ⟨⟨m'', res', h'⟩, _⟩ := wideband_run p (le_refl 40000) (by omega) (by omega : 40000 ≤ 41000) (by omega)
    (by omega : (0 : Int) < 20000) demo_i16.1 demo_i16.2 demo_ref demo_deg (u := false) rfl
  have hl : (steadySignal 40000 20000).data.length + 30 * 60 < 2147483647 := by rw [steady_length]; norm_num
  generalize steadySignal 40000 20000 = ref at *
  generalize steadySignal 41000 9000 = deg at *
  have h1 := (C11_perfect (.inl rfl) hl h).2.2.1
  refine ⟨_, m', res, m'', res', rfl, rfl, rfl, hl, h, h1, h', ?_⟩
  rw [h1]; exact (C07_run_bounds h').2.2.2

/-- The hypotheses of `C14_history` and `C55_center_freqs`: a manager after a successful and a failed call is not a new manager's
state by definition only. -/
example (p : Profile) : ∃ m m' res m'' res', Manager.new demoWorld 21 (.wideband false) 60 = .ok m ∧ After p m m' ∧
    m.run p demoWorld "ref.wav" "deg.wav" = .ok (m', res) ∧ m'.run p demoWorld "ref.wav" "ref.wav" = .ok (m'', res') := by
  obtain ⟨_, m', res, h⟩ := wideband_run p (le_refl 40000) (by omega) (by omega : 40000 ≤ 41000) (by omega)
    (by omega : (0 : Int) < 20000) demo_i16.1 demo_i16.2 demo_ref demo_deg (u := false) rfl
  obtain ⟨_, m₂, res₂, h₂⟩ := wideband_run p (le_refl 40000) (by omega) (le_refl 40000) (by omega)
    (by omega : (0 : Int) < 20000) demo_i16.1 demo_i16.1 demo_ref demo_ref (u := false) rfl
  have ha : After p _ m' := .run .fresh h
  have h3 := C14_history ha demoWorld "ref.wav" "ref.wav"
  rw [h₂] at h3
  cases h4 : m'.run p demoWorld "ref.wav" "ref.wav" with
  | error e => rw [h4] at h3; cases h3
  | ok x => exact ⟨_, m', res, x.1, x.2, rfl, ha, h, by rw [h4]⟩

/-- The hypotheses of `C16_mismatch` and `C16_only_mismatch`. -/
example (p : Profile) (m : Manager ℝ) : ∃ ref deg : AudioSignal ℝ, loadAsMono (demoWorld.wav "ref.wav") = .ok ref ∧
    loadAsMono (demoWorld.wav "8k.wav") = .ok deg ∧ ref.sampleRate ≠ deg.sampleRate ∧
    m.run p demoWorld "ref.wav" "8k.wav" = .error (.err (.differentSampleRates 16000 8000)) := by
  have h1 : loadAsMono (demoWorld.wav "ref.wav") = .ok (steadySignal 40000 20000) := demo_ref ▸ load_steady _ demo_i16.1
  obtain ⟨data, h2, _⟩ := C18_downmix_real 1 8000 20000 (List.replicate 20000 1000) (by decide)
    (fun x hx => by rw [List.eq_of_mem_replicate hx]; unfold IsI16; omega) (by rw [List.length_replicate])
  rw [← demo_8k] at h2
  exact ⟨_, _, h1, h2, by show 16000 ≠ 8000; decide, C16_mismatch h1 h2 (by show 16000 ≠ 8000; decide)⟩

/-- The hypotheses of `C20_run` and `C20_run_only`: a reference shorter than a window, aligned. -/
example (p : Profile) (m : Manager ℝ) : ∃ al lag, globallyAlign p (steadySignal 1000 5) (steadySignal 2000 7) = .ok (some (al, lag)) ∧
    (steadySignal 1000 5).data.length < (AnalysisWindow.mk' (F := ℝ) (steadySignal 1000 5).sampleRate 0.25 0.08).size ∧
    m.computeResults p (steadySignal 1000 5) (steadySignal 2000 7) = .error (.err (.tooFewSamples 1000 1280)) := by
  obtain ⟨al, t, h, _⟩ := globallyAlign_total p (ref := steadySignal 1000 5) (deg := steadySignal 2000 7) (steady_ne (by decide) _)
    (steady_ne (by decide) _) (by rw [steady_length, steady_length]; decide) (by rw [steady_length, steady_length]; decide)
    (by rw [steady_length, steady_length]; decide)
  have hw := window_size 16000 (by norm_num)
  have hlt : (steadySignal 1000 5).data.length < (AnalysisWindow.mk' (F := ℝ) 16000 0.25 0.08).size := by
    rw [steady_length, hw]; norm_num
  refine ⟨al, t, h, hlt, ?_⟩
  have := (C20_run (m := m) h).1 hlt
  rw [steady_length, steady_rate, hw] at this
  exact this

/-- The hypotheses of `C21_shape`, `C21_locality`, `C22_bands` and `C22_rows`: a spectrogram of a steady signal, whose columns are all
computed from the same samples. -/
example (fb : FilterBank ℝ) : ∃ fb' sp, buildSpectrogram 21 fb (steadySignal 40000 20000) (AnalysisWindow.mk' 16000 0.25 0.08) =
    .ok (fb', sp) ∧ sp.data.ncols = 122 ∧ ∀ j < 122, ∀ k < 122, ∀ band < 21, sp.data.at band j = sp.data.at band k := by
  obtain ⟨w1, w2, _⟩ := window_facts (sr := 16000) (by norm_num) (by norm_num)
  rw [window_16k] at w1 w2
  obtain ⟨fb', sp, h, _⟩ := buildSpectrogram_total 21 fb (steadySignal 40000 20000) (AnalysisWindow.mk' 16000 0.25 0.08)
    (by rw [steady_length, w1]; norm_num) (by omega) (by omega)
  have hn := (C21_shape h).2.2
  rw [steady_length, w1, w2] at hn
  refine ⟨fb', sp, h, hn, fun j hj k hk band hb => C21_locality h h rfl rfl (by omega) (by omega) ?_ band hb⟩
  rw [w1, w2]
  simp only [steadySignal, List.drop_replicate, List.take_replicate]
  refine congrArg (fun n => List.replicate n _) ?_
  omega

/-- The hypotheses of `C37_equal_length`, `C37_exact` and `C39_only_shifts`. -/
example (p : Profile) : ∃ out t r d t', globallyAlign p (steadySignal 40000 20000) (steadySignal 41000 9000) = .ok (some (out, t)) ∧
    alignAndTruncate p (steadySignal 40000 20000) (steadySignal 41000 9000) = .ok (some (r, d, t')) := by
  obtain ⟨out, t, h, _⟩ := globallyAlign_total p (ref := steadySignal 40000 20000) (deg := steadySignal 41000 9000)
    (steady_ne (by decide) _) (steady_ne (by decide) _) (by rw [steady_length, steady_length]; decide)
    (by rw [steady_length, steady_length]; decide) (by rw [steady_length, steady_length]; decide)
  obtain ⟨r, d, t', h', _⟩ := alignAndTruncate_total p (ref := steadySignal 40000 20000) (deg := steadySignal 41000 9000)
    (steady_ne (by decide) _) (steady_ne (by decide) _) (by rw [steady_length, steady_length]; decide)
    (by rw [steady_length, steady_length]; decide) (by rw [steady_length, steady_length]; decide) rfl (by rw [steady_rate]; decide)
  exact ⟨out, t, r, d, t', h, h'⟩

/-- The hypotheses of `C38_slice`: a piece reaching past the end. -/
example : ∃ d, sliceSignal (steadySignal 16000 3) 0.5 1.5 = .ok ⟨d, 16000⟩ ∧ d.length = 16000 := by
  have e1 : ((0.5 : ℝ) * ((16000 : ℕ) : ℝ)) = ((8000 : ℕ) : ℝ) := by norm_num
  have e2 : ((1.5 : ℝ) * ((16000 : ℕ) : ℝ)) = ((24000 : ℕ) : ℝ) := by norm_num
  obtain ⟨d, h1, h2, _⟩ := C38_slice (steadySignal 16000 3) (a := 0.5) (b := 1.5) (by norm_num) (by norm_num)
    (by rw [steady_length, steady_rate, e1, Nat.floor_natCast]; norm_num) (by rw [steady_rate, e2]; norm_num)
  rw [steady_rate, e1, e2, Nat.floor_natCast, Nat.floor_natCast] at h2
  exact ⟨d, h1, h2⟩

/-! ## Matching -/

/-- Ten bands, forty columns, all entries equal. -/
noncomputable def flatMat (n : Nat) : Mat ℝ := ⟨n, List.replicate 10 (List.replicate n 1)⟩

theorem flatMat_wf (n : Nat) : (flatMat n).WF ∧ (flatMat n).nrows = 10 := by
  constructor
  · intro r hr
    rw [List.eq_of_mem_replicate hr]; simp [flatMat]
  · simp [flatMat, Mat.nrows]

/-- The hypotheses of `C32_in_order`, `C33_optimal`, `C34_no_panic`, `C35_matched_or_silent`, `C52_coarse_times` and
`C54_dropped_from_end`: three patches of ten columns, a search window covering everything. -/
example (p : Profile) : ∃ rs, findMostOptimalDegPatches p [flatMat 10, flatMat 10, flatMat 10] [4, 14, 24] (flatMat 40) (0.02 : ℝ) 4 = .ok rs ∧
    (∀ q ∈ [flatMat 10, flatMat 10, flatMat 10], q.WF ∧ q.nrows = 10 ∧ q.ncols = 10) ∧ (flatMat 40).WF ∧
    (∀ i ∈ [4, 14, 24], (i : Int) ≤ 4 * (10 : ℕ) ∧ ((flatMat 40).ncols : Int) ≤ i + 4 * (10 : ℕ) + 1) := by
  have hq : ∀ q ∈ [flatMat 10, flatMat 10, flatMat 10], q.WF ∧ q.nrows = 10 ∧ q.ncols = 10 := by
    intro q hq
    simp only [List.mem_cons, List.not_mem_nil, or_false, or_self] at hq
    rw [hq]
    exact ⟨(flatMat_wf 10).1, (flatMat_wf 10).2, rfl⟩
  have hN : (flatMat 40).ncols = 40 := rfl
  obtain ⟨rs, h⟩ := C34_no_panic p (rps := [flatMat 10, flatMat 10, flatMat 10]) (ix := [4, 14, 24]) (deg := flatMat 40)
    (fd := 0.02) (radius := 4) (nb := 10) (pp := 10) rfl hq (by decide) (by decide) (flatMat_wf 40).1 (flatMat_wf 40).2
    (by rw [hN]; decide) (by rw [hN]; decide) (by decide) (by decide) (by decide) (by decide) (by decide)
    ⟨14, by decide, by decide, by rw [hN]; decide⟩ (by rw [hN]; decide)
  exact ⟨rs, h, hq, (flatMat_wf 40).1, by rw [hN]; decide⟩

/-- The hypotheses of `C61_out_of_reach`: the last patch starts 160 columns after the end, the search window is 100 columns. -/
example : (200 : Nat) ∈ [4, 14, 200] ∧ ((flatMat 40).ncols : Int) + 10 * (10 : ℕ) < (200 : ℕ) ∧
    ∀ i ∈ [4, 14, 200], (i : Int) + 10 * (10 : ℕ) ≤ 2147483647 := by
  have hN : (flatMat 40).ncols = 40 := rfl
  rw [hN]; decide

/-- The hypotheses of `C28_wideband`: one loud sample, then silence. -/
example : ∃ ref : AudioSignal ℝ, ref.sampleRate = 16000 ∧ 44 ≤ numColumns ref.data.length 1280 320 ∧
    ∀ norm, normalizeSignal ref.data = .ok norm → ∀ f, 30 ≤ f → ¬ Active norm 320 f := by
  refine ⟨⟨1 :: List.replicate 40000 0, 16000⟩, rfl, by simp [numColumns, -List.reduceReplicate], ?_⟩
  intro norm hn f hf
  unfold normalizeSignal at hn
  obtain ⟨m, _, hn⟩ := bind_ok hn
  have hn := Except.ok.inj hn
  have hq : ∀ g, 28 ≤ g → ¬ Loud norm 320 g := by
    intro g hg hl
    unfold Loud at hl
    have hz : ∀ x ∈ (judgedFrame norm 320 g).map (fun x => x * x), x = 0 := by
      intro x hx
      obtain ⟨y, hy, rfl⟩ := List.mem_map.mp hx
      unfold judgedFrame at hy
      obtain ⟨v, hv, rfl⟩ := List.mem_map.mp hy
      have hv2 : v ∈ norm.drop 1 := by
        have := List.mem_of_mem_take hv
        rw [show 14 + g * 320 = 1 + (13 + g * 320) by omega, ← List.drop_drop] at this
        exact List.mem_of_mem_drop this
      have hv0 : v = 0 := by
        rw [← hn] at hv2
        rw [List.map_cons, List.drop_one, List.tail_cons, List.map_replicate] at hv2
        rw [List.eq_of_mem_replicate hv2, zero_div]
      rw [hv0]
      have h0 : toPcm (0 : ℝ) = 0 := by
        unfold toPcm
        have t0 : realTrunc (0 : ℝ) = 0 := by unfold realTrunc; simp
        have h1 : Flt.toI16 ((0 : ℝ) * Flt.ofInt 32768) = 0 := by
          show max (-32768) (min 32767 (realTrunc _)) = _
          rw [zero_mul, t0]; decide
        rw [h1]
        dsimp only
        have h2 : (Flt.min (Flt.max (Flt.ofInt (-32768)) (1.0 * Flt.ofInt 32767)) (Flt.ofInt 0) : ℝ) = 0 := by
          simp only [real_min, real_max, real_ofInt, real_lit1]
          norm_num
        rw [h2]
        show max (-32768) (min 32767 (realTrunc _)) = _
        rw [t0]; decide
      rw [h0]; rfl
    rw [List.sum_eq_zero hz] at hl
    simp only [real_lt, real_sqrt, real_ofInt, real_ofNat, real_sci] at hl
    norm_num at hl
  rintro (h | h | h | h)
  · omega
  · exact hq f (by omega) h
  · exact hq _ (by omega) h
  · exact hq _ (by omega) h

/-- The hypotheses of `C30_kept_iff`, `C30_first_kept`, `C26_wideband` and `C60_decided_by_earlier_samples`. -/
example (p : Profile) : ∃ ix norm, normalizeSignal (steadySignal 40000 20000).data = .ok norm ∧
    (PatchCreator.vad 30).indices p 122 (steadySignal 40000 20000) (AnalysisWindow.mk' 16000 0.25 0.08) = .ok ix ∧ 74 ∈ ix := by
  have hn := normalize_steady (n := 40000) (z := 20000) (by decide) (by decide)
  have hc : columnCount 16000 40000 = 122 := by rw [columns_16k]
  have hw := window_facts (sr := (steadySignal 40000 20000).sampleRate) (by rw [steady_rate]; decide) (by rw [steady_rate]; decide)
  obtain ⟨ix, h1, h2, _⟩ := vad_later p (ref := steadySignal 40000 20000) hw.1 hw.2.1 hw.2.2
    (by rw [steady_length, steady_rate, window_16k]; decide) hn (k := 2) (f := 60)
    (by rw [steady_length, steady_rate, hc]; decide) (by decide)
    (active_steady (by rw [steady_rate, window_16k]; decide) (by rw [steady_rate, window_16k]; decide))
  rw [steady_length, steady_rate, hc] at h1
  exact ⟨ix, _, hn, h1, h2⟩

/-! ## The command line tool -/

/-- A batch file listing two comparisons. -/
def demoCsv (a b c d : String) : String → CsvContent := fun path =>
  if path = "batch.csv" then some [["reference", "degraded"], [a, b], [c, d]] else none

/-- Fullband, batch mode, both output files. -/
def demoArgs : CliArgs :=
  ⟨.fullband "model.txt", some "batch.csv", none, none, some "out.csv", false, some "out.json", 60⟩

/-- The manager made for these arguments. -/
noncomputable def demoManager : Manager ℝ :=
  ⟨32, 60, .image 20, .svr ⟨32, fun _ => some (some 3.5)⟩, FilterBank.new 32 50.0⟩

theorem demo_new : Manager.new demoWorld demoArgs.variant.numBands demoArgs.variant demoArgs.searchWindowRadius = .ok demoManager := rfl

theorem demo_pairs (a b c d : String) : buildFilePairPaths (demoCsv a b c d) demoArgs = .ok [⟨a, b⟩, ⟨c, d⟩] :=
  C48_batch (demoCsv a b c d) demoArgs (.inl rfl) (path := "batch.csv") rfl (header := ["reference", "degraded"])
    (rows := [[a, b], [c, d]]) (by simp [demoCsv]) (by decide) (by simp)

/-- The hypotheses of `C15_batch_ok`, `C49_debug_json_last`, `C50_rows` and of the second part of `C58_csv_patch_counts`: both pairs
succeed and have the same number of patches. -/
example (p : Profile) : ∃ m rs, Manager.new demoWorld demoArgs.variant.numBands demoArgs.variant demoArgs.searchWindowRadius = .ok m ∧
    EachAlone p demoWorld m [⟨"ref.wav", "ref.wav"⟩, ⟨"ref.wav", "ref.wav"⟩] rs ∧
    (∀ x ∈ rs, ∀ y ∈ rs, x.patchSims.length = y.patchSims.length) ∧
    (cliMain p demoWorld (demoCsv "ref.wav" "ref.wav" "ref.wav" "ref.wav") (fun _ => true) demoArgs).2 = .ok () := by
  obtain ⟨_, m', res, h⟩ := fullband_run p (le_refl 40000) (by omega) (le_refl 40000) (by omega) demo_i16.1 demo_i16.1
    demo_ref demo_ref (path := "model.txt") rfl (m := demoManager) demo_new
  have he : EachAlone p demoWorld demoManager [⟨"ref.wav", "ref.wav"⟩, ⟨"ref.wav", "ref.wav"⟩] [res, res] := by
    unfold EachAlone
    refine .cons ⟨m', ?_⟩ (.cons ⟨m', ?_⟩ .nil)
    · exact h
    · exact h
  have hs : ∀ x ∈ [res, res], ∀ y ∈ [res, res], x.patchSims.length = y.patchSims.length := by
    intro x hx y hy
    simp only [List.mem_cons, List.not_mem_nil, or_false, or_self] at hx hy
    rw [hx, hy]
  have hp := demo_pairs "ref.wav" "ref.wav" "ref.wav" "ref.wav"
  have hm := demo_new
  generalize demoWorld = world at *
  generalize demoManager = m at *
  exact ⟨m, [res, res], hm, he, hs, (C58_csv_patch_counts hp hm he (path := "out.csv") rfl (fun _ => rfl)).2 hs⟩

/-- A file compared with itself in fullband mode has as many patches as fit into it. -/
theorem steady_count {p : Profile} {m m' : Manager ℝ} {res : SimilarityResult ℝ} (hm : m.patchCreator = .image 20) {n : Nat} {z : Int}
    (hn : 9 ≤ n) (hn2 : n ≤ 90000) (h : m.computeResults p (steadySignal n z) (steadySignal n z) = .ok (m', res)) (k : Nat) :
    k < res.patchSims.length ↔ 9 + 20 * k + 21 < (n - 1280) / 320 + 1 := by
  obtain ⟨al, lag, h1, h2⟩ := C64_count hm (by rw [steady_length]; omega) h
  rw [globallyAlign_self p (by rw [steady_length]; exact hn) (by rw [steady_length]; omega)] at h1
  cases h1
  obtain ⟨w1, w2, _⟩ := window_facts (sr := 16000) (by norm_num) (by norm_num)
  rw [window_16k] at w1 w2
  have := h2 k
  rw [steady_length, steady_rate, w1, w2] at this
  unfold numColumns at this
  rw [this]
  omega

/-- The hypotheses of the first part of `C58_csv_patch_counts`: two files of different length. -/
example (p : Profile) : ∃ m rs, Manager.new demoWorld demoArgs.variant.numBands demoArgs.variant demoArgs.searchWindowRadius = .ok m ∧
    EachAlone p demoWorld m [⟨"ref.wav", "ref.wav"⟩, ⟨"long.wav", "long.wav"⟩] rs ∧
    (∃ x ∈ rs, ∃ y ∈ rs, x.patchSims.length ≠ y.patchSims.length) ∧
    (cliMain p demoWorld (demoCsv "ref.wav" "ref.wav" "long.wav" "long.wav") (fun _ => true) demoArgs).2 = .error (.panic .expect) := by
  obtain ⟨_, m', res, h⟩ := fullband_run p (le_refl 40000) (by omega) (le_refl 40000) (by omega) demo_i16.1 demo_i16.1
    demo_ref demo_ref (path := "model.txt") rfl (m := demoManager) demo_new
  obtain ⟨_, m₂', res₂, h₂⟩ := fullband_run p (a := 80000) (by omega) (by omega) (le_refl 80000) (by omega) demo_i16.1 demo_i16.1
    demo_long demo_long (path := "model.txt") rfl (m := demoManager) demo_new
  have he : EachAlone p demoWorld demoManager [⟨"ref.wav", "ref.wav"⟩, ⟨"long.wav", "long.wav"⟩] [res, res₂] := by
    unfold EachAlone
    refine .cons ⟨m', ?_⟩ (.cons ⟨m₂', ?_⟩ .nil)
    · exact h
    · exact h₂
  have hne : ∃ x ∈ [res, res₂], ∃ y ∈ [res, res₂], x.patchSims.length ≠ y.patchSims.length := by
    refine ⟨res, by simp, res₂, by simp, fun heq => ?_⟩
    rw [C16_same_rate (ref := steadySignal 40000 20000) (deg := steadySignal 40000 20000) (demo_ref ▸ load_steady _ demo_i16.1)
      (demo_ref ▸ load_steady _ demo_i16.1) rfl] at h
    rw [C16_same_rate (ref := steadySignal 80000 20000) (deg := steadySignal 80000 20000) (demo_long ▸ load_steady _ demo_i16.1)
      (demo_long ▸ load_steady _ demo_i16.1) rfl] at h₂
    have a := steady_count rfl (by omega) (by omega) h 5
    have b := steady_count rfl (by omega) (by omega) h₂ 5
    rw [heq] at a
    omega
  have hp := demo_pairs "ref.wav" "ref.wav" "long.wav" "long.wav"
  have hm := demo_new
  clear h h₂
  generalize demoWorld = world at *
  generalize demoManager = m at *
  exact ⟨m, [res, res₂], hm, he, hne, ((C58_csv_patch_counts hp hm he (path := "out.csv") rfl (fun _ => rfl)).1 hne).1⟩

/-- The hypotheses of `C15_batch_fail`: the second pair cannot be read; nothing is written although the first succeeds. -/
example (p : Profile) (wr : String → Bool) :
    cliMain p demoWorld (demoCsv "ref.wav" "deg.wav" "missing.wav" "ref.wav") wr demoArgs = ([], .error .external) := by
  obtain ⟨_, m', res, h⟩ := fullband_run p (le_refl 40000) (by omega) (by omega : 40000 ≤ 41000) (by omega) demo_i16.1 demo_i16.2
    demo_ref demo_deg (path := "model.txt") rfl (m := demoManager) demo_new
  refine C15_batch_fail (pre := [⟨"ref.wav", "deg.wav"⟩]) (q := ⟨"missing.wav", "ref.wav"⟩) (post := []) (demo_pairs _ _ _ _) demo_new
    (rs := [res]) (.cons ⟨m', h⟩ .nil) ?_
  have hw : demoWorld.wav "missing.wav" = .unreadable := by simp [demoWorld, -List.reduceReplicate]
  unfold Manager.run
  rw [hw]
  rfl

/-- The hypotheses of `C59_no_names`: the same content under two names. -/
example : ∃ world : World ℝ, List.Forall₂ (fun x y : PathPair => world.wav x.reference = world.wav y.reference ∧
    world.wav x.degraded = world.wav y.degraded) [⟨"a.wav", "b.wav"⟩] [⟨"copy-of-a.wav", "copy-of-b.wav"⟩] :=
  ⟨⟨fun _ => steadyFile 40000 20000, fun _ => none⟩, .cons ⟨rfl, rfl⟩ .nil⟩

end Visqol
