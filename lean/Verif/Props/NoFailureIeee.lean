import Verif.Lemmas.IeeeCompare
import Verif.Lemmas.IeeeCentre
import Verif.Num.Binary64Libm

/-!
# C74: in double precision, comparisons of ordinary signals return scores that are numbers

The floating point counterpart of C63: no stage produces a NaN or an infinity that a later stage stumbles over.
-/

set_option linter.unusedSectionVars false

namespace Visqol
open Ieee

variable {F : Type} [Flt F] [Ieee F]

variable [RustFft F] [BoundedFft F] [Libm F]

theorem computeResults_total' (p : Profile) (m : Manager F) {ref deg : AudioSignal F} {ix : List Nat}
    (hsr : ref.sampleRate = deg.sampleRate) (hr : ref.data ≠ []) (h2 : 2 ≤ max ref.data.length deg.data.length)
    (hbig : max ref.data.length deg.data.length ≤ 2 ^ 31) (hhalf : ref.data.length / 2 < deg.data.length)
    (hrs : OrdinarySamples ref) (hds : OrdinarySamples deg) (hl : SoundFrom (ref.data.length / 2) deg)
    (hc : ∀ al : AudioSignal F, deg.data.length - ref.data.length / 2 ≤ al.data.length →
      al.data.length ≤ deg.data.length + ref.data.length / 2 → (∀ a ∈ ref.data, Pw 1 a) → (∀ a ∈ al.data, Pw 1 a) →
      (∃ a ∈ al.data, ∃ v, Is a v ∧ 1 / 2 ^ 40 ≤ |v|) →
      OrdinaryRun p m.searchWindow m.numBands m.filterBank.minFreq m.patchCreator m.mapper ref al
        (AnalysisWindow.mk' ref.sampleRate 0.25 0.08) ix) :
    ∃ m' res, m.computeResults p ref deg = .ok (m', res) ∧ FiniteScores res := by
  have pr : ∀ a ∈ ref.data, Pw 1 a := fun a ha => by
    obtain ⟨x, h1, h2⟩ := hrs a ha
    exact ⟨x, h1, by norm_num; exact h2⟩
  have pd : ∀ a ∈ deg.data, Pw 1 a := fun a ha => by
    obtain ⟨x, h1, h2⟩ := hds a ha
    exact ⟨x, h1, by norm_num; exact h2⟩
  obtain ⟨al, t, g1, g2, g3, g4⟩ := globallyAlign_total' p pr pd (by norm_num) hr (by intro h; rw [h] at hhalf; simp at hhalf) h2 hbig (by omega)
  have hloud : ∃ a ∈ al.data, ∃ v, Is a v ∧ 1 / 2 ^ 40 ≤ |v| := by
    obtain ⟨a, ha, hv⟩ := hl
    refine ⟨a, ?_, hv⟩
    obtain ⟨_, ⟨e, _⟩ | ⟨lag, _, hlag, _, ⟨_, _, e⟩ | ⟨_, e⟩⟩⟩ := C39_only_shifts g1
    · rw [e]; exact List.mem_of_mem_drop ha
    · rw [e]
      have : ref.data.length / 2 = lag.natAbs + (ref.data.length / 2 - lag.natAbs) := by omega
      rw [this, ← List.drop_drop] at ha
      exact List.mem_of_mem_drop ha
    · rw [e]; exact List.mem_append_right _ (List.mem_of_mem_drop ha)
  obtain ⟨fb, x, hx, hfin⟩ := calculateSimilarity_total' (fb := m.filterBank) (hsr.trans g2.symm) (w := AnalysisWindow.mk' ref.sampleRate 0.25 0.08) rfl
    (hc al g3 (globallyAlign_length g1) pr g4 hloud)
  refine ⟨{ m with filterBank := fb }, x, ?_, hfin⟩
  unfold Manager.computeResults
  rw [bind_of_ok g1]
  dsimp only
  rw [bind_of_ok hx]

/-- Any two signals of the same rate, given the patches of the reference. -/
theorem succeeds' (p : Profile) (m : Manager F) {ref deg : AudioSignal F} {ix : List Nat}
    (hpc : m.patchCreator = .vad 30 ∨ m.patchCreator = .image 20) (hnb : 0 < m.numBands) (hnb2 : m.numBands ≤ 64)
    (hmf : m.filterBank.minFreq = 50.0)
    (hmap : ∀ v : List F, v.length = m.numBands → (∀ a ∈ v, Pw 18 a) → ∃ q, m.mapper.predict v = .ok q ∧ val q ≠ .nan)
    (hsr : ref.sampleRate = deg.sampleRate) (h1k : 1000 ≤ ref.sampleRate) (h1m : ref.sampleRate ≤ 1000000)
    (h9 : 9 ≤ ref.data.length)
    (hsmall : 2 * (ref.data.length + deg.data.length) + 30 * m.searchWindow < 2147483647)
    (hrs : OrdinarySamples ref) (hds : OrdinarySamples deg) (hl : SoundFrom (ref.data.length / 2) deg)
    (href : windowSamples ref.sampleRate ≤ ref.data.length)
    (hdeg : ref.data.length / 2 + windowSamples ref.sampleRate ≤ deg.data.length)
    (hd1 : SmallDrift ref.sampleRate ref.data.length)
    (hd2 : SmallDrift ref.sampleRate (deg.data.length + ref.data.length / 2))
    (hix : m.patchCreator.indices p (columnCount ref.sampleRate ref.data.length) ref
      (AnalysisWindow.mk' ref.sampleRate 0.25 0.08) = .ok ix)
    (huse : ∃ i ∈ ix, m.patchCreator.patchSize / 2 ≤ i ∧
      i ≤ columnCount ref.sampleRate (deg.data.length - ref.data.length / 2) + m.patchCreator.patchSize / 2)
    (hreach : ∀ i ∈ ix, i ≤ columnCount ref.sampleRate (deg.data.length - ref.data.length / 2) +
      m.searchWindow * m.patchCreator.patchSize) :
    ∃ m' res, m.computeResults p ref deg = .ok (m', res) ∧ FiniteScores res := by
  obtain ⟨w1, w2, w3⟩ := ieee_window_facts (F := F) (sr := ref.sampleRate) (by omega) (by omega)
  have w4 : windowSamples ref.sampleRate ≤ 2 ^ 17 := by unfold windowSamples; omega
  refine computeResults_total' p m hsr (by intro h; rw [h] at h9; simp at h9) (by omega) (by omega) (by omega) hrs hds hl (ix := ix) ?_
  intro al h3 h4 pr pa hloud
  have mono := numColumns_mono (W := windowSamples ref.sampleRate) (H := windowSamples ref.sampleRate / 4) h3
  have mono2 := numColumns_mono (W := windowSamples ref.sampleRate) (H := windowSamples ref.sampleRate / 4) h4
  unfold SmallDrift at hd1 hd2
  simp only [columnCount_eq] at *
  exact
    { creator := hpc, bands := hnb, bandsFew := by omega, rate := by omega, rateU32 := by omega
      bank := by rw [hmf]; exact tameBank h1k h1m hnb hnb2
      freqs := by rw [hmf]; exact freqsOk h1k h1m hnb hnb2
      hop := by rw [w1, w2], long := by omega, short := by omega, refLong := by omega, degLong := by omega, small := by omega
      refSamples := pr, degSamples := pa, loud := hloud
      patches := by rw [w1, w2]; exact hix
      usable := by
        obtain ⟨i, hi, a, b⟩ := huse
        exact ⟨i, hi, a, by rw [w1, w2]; omega⟩
      reach := by
        intro i hi
        have := hreach i hi
        rw [w1, w2]; omega
      refDrift := by rw [w1, w2]; exact hd1
      degDrift := by rw [w1, w2]; exact (Nat.mul_le_mul_right _ mono2).trans hd2
      mapping := hmap }

/-- C74, fullband.  The quality mapper must answer with a number when the band means are numbers. -/
theorem C74_fullband_finite (p : Profile) (m : Manager F) {ref deg : AudioSignal F}
    (hpc : m.patchCreator = .image 20) (hnb : 0 < m.numBands) (hnb2 : m.numBands ≤ 64) (hmf : m.filterBank.minFreq = 50.0)
    (hmap : ∀ v : List F, v.length = m.numBands → (∀ a ∈ v, ∃ x, val a = .fin x ∧ |x| ≤ 2 ^ 18) →
      ∃ q, m.mapper.predict v = .ok q ∧ val q ≠ .nan)
    (hsr : ref.sampleRate = deg.sampleRate) (h1k : 1000 ≤ ref.sampleRate) (h1m : ref.sampleRate ≤ 1000000)
    (hsmall : 2 * (ref.data.length + deg.data.length) + 30 * m.searchWindow < 2147483647)
    (hrs : OrdinarySamples ref) (hds : OrdinarySamples deg) (hl : SoundFrom (ref.data.length / 2) deg)
    (hd1 : SmallDrift ref.sampleRate ref.data.length)
    (hd2 : SmallDrift ref.sampleRate (deg.data.length + ref.data.length / 2))
    (href : 51 ≤ columnCount ref.sampleRate ref.data.length)
    (hdeg : ref.data.length / 2 + windowSamples ref.sampleRate ≤ deg.data.length)
    (huse : 19 ≤ columnCount ref.sampleRate (deg.data.length - ref.data.length / 2))
    (hreach : columnCount ref.sampleRate ref.data.length ≤
      columnCount ref.sampleRate (deg.data.length - ref.data.length / 2) + m.searchWindow * 20 + 21) :
    ∃ m' res, m.computeResults p ref deg = .ok (m', res) ∧ FiniteScores res := by
  have hle : 50 + windowSamples ref.sampleRate ≤ ref.data.length := by
    have := Nat.div_le_self (ref.data.length - windowSamples ref.sampleRate) (windowSamples ref.sampleRate / 4)
    unfold columnCount at href; omega
  obtain ⟨ix, h1, h2, h3⟩ := image_second p href ref (AnalysisWindow.mk' ref.sampleRate 0.25 0.08)
  refine succeeds' p m (.inr hpc) hnb hnb2 hmf hmap hsr h1k h1m (by omega) hsmall hrs hds hl (by omega) hdeg hd1 hd2
    (ix := ix) (by rw [hpc]; exact h1) ⟨29, h2, ?_, ?_⟩ ?_
  · rw [hpc]; decide
  · rw [hpc]; show 29 ≤ _ + 20 / 2; omega
  · intro i hi
    have := h3 i hi
    rw [hpc]; show i ≤ _ + m.searchWindow * 20; omega

/-- C74, wideband: the exponential fit needs no hypothesis. -/
theorem C74_wideband_finite (p : Profile) (m : Manager F) {ref deg : AudioSignal F}
    (hpc : m.patchCreator = .vad 30) (hnb : 0 < m.numBands) (hnb2 : m.numBands ≤ 64) (hmf : m.filterBank.minFreq = 50.0)
    {scale : Bool} (hmap : m.mapper = .speech scale)
    (hsr : ref.sampleRate = deg.sampleRate) (h1k : 1000 ≤ ref.sampleRate) (h1m : ref.sampleRate ≤ 1000000)
    (hsmall : 2 * (ref.data.length + deg.data.length) + 30 * m.searchWindow < 2147483647)
    (hrs : OrdinarySamples ref) (hds : OrdinarySamples deg) (hl : SoundFrom (ref.data.length / 2) deg)
    (hd1 : SmallDrift ref.sampleRate ref.data.length)
    (hd2 : SmallDrift ref.sampleRate (deg.data.length + ref.data.length / 2))
    {norm : List F} (hn : normalizeSignal ref.data = .ok norm) {k f : Nat} (hk1 : 1 ≤ k)
    (hk : 14 + 30 * k + 30 ≤ columnCount ref.sampleRate ref.data.length) (hf : 30 * k ≤ f ∧ f < 30 * k + 30)
    (ha : Active norm (windowSamples ref.sampleRate / 4) f)
    (hdeg : ref.data.length / 2 + windowSamples ref.sampleRate ≤ deg.data.length)
    (huse : 14 + 30 * k ≤ columnCount ref.sampleRate (deg.data.length - ref.data.length / 2) + 15)
    (hreach : columnCount ref.sampleRate ref.data.length ≤
      columnCount ref.sampleRate (deg.data.length - ref.data.length / 2) + m.searchWindow * 30 + 30) :
    ∃ m' res, m.computeResults p ref deg = .ok (m', res) ∧ FiniteScores res := by
  have hle : 50 + windowSamples ref.sampleRate ≤ ref.data.length := by
    have := Nat.div_le_self (ref.data.length - windowSamples ref.sampleRate) (windowSamples ref.sampleRate / 4)
    unfold columnCount at hk; omega
  obtain ⟨w1, w2, w3⟩ := ieee_window_facts (F := F) (sr := ref.sampleRate) (by omega) (by omega)
  obtain ⟨ix, h1, h2, h3⟩ := vad_later p w1 w2 w3 (by omega) hn hk hf ha
  refine succeeds' p m (.inl hpc) hnb hnb2 hmf ?_ hsr h1k h1m (by omega) hsmall hrs hds hl (by omega) hdeg hd1 hd2
    (ix := ix) (by rw [hpc]; exact h1) ⟨_, h2, ?_, ?_⟩ ?_
  · intro v hv hpw
    obtain ⟨y, hy, _, _⟩ := speechQuality_num (s := scale) hpw (by norm_num) (by intro h; rw [h] at hv; simp at hv; omega) (by omega)
    refine ⟨speechQuality scale v, by rw [hmap]; rfl, ?_⟩
    rw [hy]
    exact fun h => by cases h
  · rw [hpc]; show 30 / 2 ≤ _; omega
  · rw [hpc]; show _ ≤ _ + 30 / 2; omega
  · intro i hi
    have := h3 i hi
    rw [hpc]; show i ≤ _ + m.searchWindow * 30; omega

/-! ## Examples -/

/-- `n` samples of full scale after `z` zeros, at 16000 Hz. -/
def onset (F : Type) [Flt F] (z n : Nat) : AudioSignal F := ⟨List.replicate z 0.0 ++ List.replicate n 1.0, 16000⟩

theorem onset_length (z n : Nat) : (onset F z n).data.length = z + n := by simp [onset]
theorem onset_ordinary (z n : Nat) : OrdinarySamples (onset F z n) := by
  intro a ha
  rcases List.mem_append.mp ha with h | h
  · rw [List.eq_of_mem_replicate h]; exact ⟨0, val_0, by norm_num⟩
  · rw [List.eq_of_mem_replicate h]; exact ⟨1, val_1, by norm_num⟩
theorem onset_sound {z n k : Nat} (h : k < z + n) (hn : 0 < n) : SoundFrom k (onset F z n) := by
  refine ⟨1.0, ?_, 1, val_1, by norm_num⟩
  unfold onset
  rw [List.drop_append, List.length_replicate, List.drop_replicate, List.drop_replicate]
  exact List.mem_append_right _ (List.mem_replicate.mpr ⟨by omega, rfl⟩)

/-- A sample of full scale becomes 32767. -/
theorem pcm_full {a : F} (ha : val a = .fin 1) : toPcm a = 32767 := by
  unfold toPcm
  dsimp only
  have h1 : ∀ z : Int, |z| ≤ 2 ^ 53 → Is (Flt.ofInt z : F) z := fun z hz => by
    unfold Is; rw [val_ofInt, rnd_int F hz]
  have h2 : Flt.toI16 (a * Flt.ofInt 32768) = 32767 := by
    rw [Libm.toI16_val _ 32768]
    · unfold realToInt; rw [show realTrunc 32768 = 32768 by exact_mod_cast realTrunc_intCast 32768]; norm_num
    · rw [val_mul, ha, h1 32768 (by norm_num)]
      show rnd F _ = _
      have := rnd_int F (k := 32768) (by norm_num)
      rw [one_mul]; exact_mod_cast this
  have h3 : Is ((1.0 : F) * Flt.ofInt 32767) 32767 := by
    unfold Is
    rw [val_mul, val_1, h1 32767 (by norm_num)]
    show rnd F _ = _
    have := rnd_int F (k := 32767) (by norm_num)
    rw [one_mul]; exact_mod_cast this
  rw [h2, Libm.toI16_val _ 32767]
  · unfold realToInt; rw [show realTrunc 32767 = 32767 by exact_mod_cast realTrunc_intCast 32767]; norm_num
  · have := ((h1 (-32768) (by norm_num)).max h3).min (h1 32767 (by norm_num))
    have e : min (max ((-32768 : ℤ) : ℝ) 32767) ((32767 : ℤ) : ℝ) = 32767 := by norm_num
    rw [e] at this
    exact this

/-- A steady signal of full scale is loud throughout. -/
theorem steady_active {n f : Nat} {a : F} (h1 : val a = .fin 1) (hn : 14 + (f + 1) * 320 ≤ n) :
    ∃ norm, normalizeSignal (List.replicate n a) = .ok norm ∧ Active norm 320 f := by
  have hne : List.replicate n a ≠ [] := by
    intro h; have := congrArg List.length h; rw [List.length_replicate] at this; simp at this; omega
  obtain ⟨m, h2, h3⟩ := extremum_fin (keep := .gt) hne (fun b hb => ⟨1, by rw [List.eq_of_mem_replicate hb]; exact h1⟩)
  rw [List.eq_of_mem_replicate h2] at h3
  refine ⟨List.replicate n (a / a), ?_, .inr (.inl ?_)⟩
  · unfold normalizeSignal
    rw [h3]
    show Except.ok _ = _
    rw [List.map_replicate]
  have hv : val (a / a) = .fin 1 := by
    rw [div_fin _ _ _ _ h1 h1 one_ne_zero, div_one, rnd_one]
  have hj : judgedFrame (List.replicate n (a / a)) 320 f = List.replicate 320 32767 := by
    unfold judgedFrame
    rw [List.drop_replicate, List.take_replicate, List.map_replicate, pcm_full hv]
    congr 1
    omega
  unfold Loud
  rw [hj, List.map_replicate, List.sum_replicate]
  have a1 : val (Flt.ofInt (320 • (32767 * 32767) : Int) : F) = .fin (320 * 1073676289) := by
    have := rnd_int F (k := 320 • (32767 * 32767)) (by norm_num)
    rw [val_ofInt, this]; norm_num
  have a2 : val (Flt.ofNat 320 : F) = .fin 320 := by
    have := rnd_nat F (n := 320) (by norm_num)
    rw [val_ofNat, this]; norm_num
  have a3 : val (Flt.ofInt (320 • (32767 * 32767) : Int) / Flt.ofNat 320 : F) = .fin 1073676289 := by
    have := rnd_int F (k := 1073676289) (by norm_num)
    rw [div_fin _ _ _ _ a1 a2 (by norm_num), mul_div_cancel_left₀ _ (by norm_num)]
    exact_mod_cast this
  have a4 : val (Flt.sqrt (Flt.ofInt (320 • (32767 * 32767) : Int) / Flt.ofNat 320) : F) = .fin 32767 := by
    have := rnd_int F (k := 32767) (by norm_num)
    rw [val_sqrt, a3]
    show (if _ then _ else _) = _
    rw [if_neg (by norm_num), show Real.sqrt 1073676289 = 32767 by
      rw [show (1073676289 : ℝ) = 32767 * 32767 by norm_num, Real.sqrt_mul_self (by norm_num)]]
    exact_mod_cast this
  have a5 : val (5000.0 : F) = .fin 5000 := by
    have := val_litnat (F := F) (m := 50000) (e := 1) (k := 5000) (by norm_num) (by norm_num); exact_mod_cast this
  rw [lt_val, a4, a5]
  show decide _ = false
  norm_num

/-- The hypotheses of `C74_fullband_finite`: 2.5 s at full scale against the same delayed by 1000 samples, in double precision, with a
support vector regression that answers 3. -/
example (p : Profile) : ∃ m' res, (⟨32, 60, .image 20, .svr ⟨32, fun _ => some (some 3.0)⟩, FilterBank.new 32 50.0⟩ : Manager B64).computeResults p
    (onset B64 0 40000) (onset B64 1000 40000) = .ok (m', res) ∧ FiniteScores res := by
  refine C74_fullband_finite p _ rfl (by norm_num) (by norm_num) rfl (fun v hv ha => ?_) rfl (by norm_num [onset]) (by norm_num [onset]) ?_
    (onset_ordinary _ _) (onset_ordinary _ _) (onset_sound ?_ ?_) ?_ ?_ ?_ ?_ ?_ ?_
  · refine ⟨Flt.clamp 3.0 1.0 5.0, ?_, ?_⟩
    · show (svrPredict _ v >>= _) = _
      unfold svrPredict
      have hv : v.length = 32 := hv
      rw [if_neg (by show ¬ 32 < _; omega)]
      rfl
    · obtain ⟨y, hy, _⟩ := clamp_num (x := (3.0 : B64)) (by
        have := val_litnat (F := B64) (m := 30) (e := 1) (k := 3) (by norm_num) (by norm_num)
        rw [this]; exact fun h => by cases h)
      rw [hy]; exact fun h => by cases h
  all_goals try simp only [onset_length, show ∀ z n, (onset B64 z n).sampleRate = 16000 from fun _ _ => rfl]
  all_goals try unfold SmallDrift
  all_goals try unfold columnCount
  all_goals try unfold windowSamples
  all_goals norm_num

/-- The hypotheses of `C74_wideband_finite`: the same signals, wideband. -/
example (p : Profile) (u : Bool) : ∃ m' res, (⟨21, 60, .vad 30, .speech u, FilterBank.new 21 50.0⟩ : Manager B64).computeResults p
    (onset B64 0 40000) (onset B64 1000 40000) = .ok (m', res) ∧ FiniteScores res := by
  obtain ⟨norm, h1, h2⟩ := steady_active (F := B64) (n := 40000) (f := 30) val_1 (by norm_num)
  rw [show List.replicate 40000 (1.0 : B64) = (onset B64 0 40000).data by unfold onset; rw [List.replicate_zero, List.nil_append]] at h1
  refine C74_wideband_finite p _ rfl (by norm_num) (by norm_num) rfl rfl rfl (by norm_num [onset]) (by norm_num [onset]) ?_
    (onset_ordinary _ _) (onset_ordinary _ _) (onset_sound ?_ ?_) ?_ ?_ h1 (k := 1) (f := 30) le_rfl ?_ (by norm_num) ?_ ?_ ?_ ?_
  all_goals try simp only [onset_length, show ∀ z n, (onset B64 z n).sampleRate = 16000 from fun _ _ => rfl]
  all_goals try exact h2
  all_goals try unfold SmallDrift
  all_goals try unfold columnCount
  all_goals try unfold windowSamples
  all_goals norm_num

end Visqol
