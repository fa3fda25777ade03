import Verif.Props.SelfRunRounded
import Verif.Props.DelayRounded
import Verif.Num.Binary64Unit

/-! # C11 in floating point: no delay is found, and the score is nearly perfect -/

set_option linter.unusedSectionVars false

namespace Visqol
open Ieee
open Spec (ClearPeak)

variable {F : Type} [Flt F] [Ieee F] [Libm F] [RustFft F] [AccurateFft F]

/-- A signal whose envelope has a clear correlation peak is not shifted against itself. -/
theorem self_no_delay (p : Profile) {pad : ℕ → ℕ} (hpad : ∀ n, 1 ≤ n → n ≤ 2 ^ 63 → nextPowTwo p n = .ok (pad n)) {ref : AudioSignal F}
    (hro : OrdinarySamples ref) (h9 : 9 ≤ ref.data.length) (h24 : ref.data.length ≤ 2 ^ 24) (hsr : 1 ≤ ref.sampleRate) (hsr2 : ref.sampleRate ≤ 2 ^ 53)
    (hclear : ClearPeak (Spec.envelope (ref.data.map number) (max (pad ref.data.length) 32))
      (Spec.envelope (ref.data.map number) (max (pad ref.data.length) 32)) (ref.data.length * Real.sqrt ref.data.length / 2 ^ 26) 0) :
    ∃ l, globallyAlign p ref ref = .ok (some (ref, l)) ∧ val l = .fin 0 := by
  obtain ⟨z, al, l, h1, ⟨lag, h2, h3⟩, _, _, h5, h6⟩ := C70_rounded p hpad hro hro (by omega) (by omega) (by omega) (by omega) (by omega) hsr hsr2
  rw [List.length_map, max_self] at h2
  have hz : lag = 0 := nearBest_clear h2 hclear
  have hz : z = 0 := by rw [h3, hz]; simp [Spec.accepted]
  rw [hz, Int.cast_zero, zero_div, rnd_zero] at h5
  rw [h6 hz] at h1
  exact ⟨l, h1, h5⟩

variable [UnitLaws F]

/-- C11, floating point: comparing an ordinary signal with itself gives a `vnsim` of at least 0.989 and, in wideband, a MOS of at
least 3.99 (unscaled) or 4.8 (scaled), provided the correlation of its envelope with itself stands out at lag zero. -/
theorem C11_rounded {p : Profile} {pad : ℕ → ℕ} (hpad : ∀ n, 1 ≤ n → n ≤ 2 ^ 63 → nextPowTwo p n = .ok (pad n))
    {m m' : Manager F} {ref : AudioSignal F} {res : SimilarityResult F}
    (h : m.computeResults p ref ref = .ok (m', res)) (hpc : m.patchCreator = .vad 30 ∨ m.patchCreator = .image 20) (hnb : m.numBands ≤ 32)
    (hmf : m.filterBank.minFreq = 50.0) (h1k : 1000 ≤ ref.sampleRate) (h1m : ref.sampleRate ≤ 1000000)
    (hrs : OrdinarySamples ref) (hl : SoundFrom 0 ref) (hsw : m.searchWindow ≤ 2 ^ 15) (h9 : 9 ≤ ref.data.length) (h24 : ref.data.length ≤ 2 ^ 24)
    (hcover : columnCount ref.sampleRate ref.data.length ≤ m.searchWindow * m.patchCreator.patchSize + 1)
    (hclear : ClearPeak (Spec.envelope (ref.data.map number) (max (pad ref.data.length) 32))
      (Spec.envelope (ref.data.map number) (max (pad ref.data.length) 32)) (ref.data.length * Real.sqrt ref.data.length / 2 ^ 26) 0)
    (hf : FiniteScores res) :
    989 / 1000 ≤ number res.vnsim ∧
    ∀ s, m.mapper = .speech s → ∃ z, val res.moslqo = .fin z ∧ (if s then 48 / 10 else 399 / 100) ≤ z ∧ z ≤ 5 := by
  obtain ⟨l, hl', _⟩ := self_no_delay p hpad hrs h9 h24 (by omega) (by omega) hclear
  exact self_result_rounded h hpc hnb hmf h1k h1m hrs hl hsw (by omega) hcover hl' hf

/-- The hypotheses of `C11_rounded`: two and a half seconds of a steady signal, wideband. -/
example (p : Profile) (u : Bool) : ∃ m' res, (⟨21, 60, .vad 30, .speech u, FilterBank.new 21 50.0⟩ : Manager B64).computeResults p
    (onset B64 0 40000) (onset B64 0 40000) = .ok (m', res) ∧ 989 / 1000 ≤ number res.vnsim := by
  obtain ⟨norm, h1, h2⟩ := steady_active (F := B64) (n := 40000) (f := 30) val_1 (by norm_num)
  rw [show List.replicate 40000 (1.0 : B64) = (onset B64 0 40000).data by unfold onset; rw [List.replicate_zero, List.nil_append]] at h1
  have hrun : ∃ m' res, (⟨21, 60, .vad 30, .speech u, FilterBank.new 21 50.0⟩ : Manager B64).computeResults p
      (onset B64 0 40000) (onset B64 0 40000) = .ok (m', res) ∧ FiniteScores res := by
    refine C74_wideband_finite p _ rfl (by norm_num) (by norm_num) rfl rfl rfl (by norm_num [onset]) (by norm_num [onset]) ?_
      (onset_ordinary _ _) (onset_ordinary _ _) (onset_sound ?_ ?_) ?_ ?_ h1 (k := 1) (f := 30) le_rfl ?_ (by norm_num) ?_ ?_ ?_ ?_
    all_goals try simp only [onset_length, show ∀ z n, (onset B64 z n).sampleRate = 16000 from fun _ _ => rfl]
    all_goals try exact h2
    all_goals try unfold SmallDrift
    all_goals try unfold columnCount
    all_goals try unfold windowSamples
    all_goals norm_num
  obtain ⟨m', res, hr, hf⟩ := hrun
  obtain ⟨pad, hpad⟩ := pad_exists p
  refine ⟨m', res, hr, (C11_rounded hpad hr (.inl rfl) (by norm_num) rfl (by norm_num [onset]) (by norm_num [onset]) (onset_ordinary _ _)
    (onset_sound (by norm_num) (by norm_num)) (by norm_num) ?_ ?_ ?_ ?_ hf).1⟩
  · rw [onset_length]; norm_num
  · rw [onset_length]; norm_num
  · rw [onset_length, show (onset B64 0 40000).sampleRate = 16000 from rfl]
    unfold columnCount windowSamples
    show _ ≤ 60 * 30 + 1
    norm_num
  · rw [onset_length]
    have hd : (onset B64 0 40000).data.map number = List.replicate 40000 1 := by
      unfold onset
      rw [List.replicate_zero, List.nil_append, List.map_replicate, number_of (val_1 (F := B64))]
    rw [hd, envelope_const (by norm_num)]
    refine self_clear (by rw [Ne, List.replicate_eq_nil_iff]; norm_num) ?_
    have h4 : Real.sqrt ((0 + 40000 : ℕ) : ℝ) = 200 := by
      rw [show ((0 + 40000 : ℕ) : ℝ) = 200 ^ 2 by norm_num]; exact Real.sqrt_sq (by norm_num)
    rw [h4]
    simp only [List.length_replicate, List.getD_eq_getElem?_getD, List.getElem?_replicate]
    norm_num

end Visqol
