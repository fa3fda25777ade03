import Verif.Lemmas.IeeeOpposite
import Verif.Num.Binary64Bits
import Verif.Props.InvertedCopy
import Verif.Props.SelfDelayRounded
import Verif.Props.ExactlyWhenRounded

/-! # C96 in floating point: an inverted copy -/

set_option linter.unusedSectionVars false

namespace Visqol
open Ieee
open Spec (Balanced ClearPeak accepted shift)

variable {F : Type} [Flt F] [Ieee F] [BitLaws F]

/-- The inverted copy, delayed by `k` samples. -/
def AudioSignal.inverted (k : ℕ) (s : AudioSignal F) : AudioSignal F := ⟨List.replicate k 0.0 ++ s.data.map (-·), s.sampleRate⟩

theorem opp_map (l : List F) : List.Forall₂ Opp l (l.map (-·)) := by
  induction l with
  | nil => exact .nil
  | cons a l ih => exact .cons (.neg a) ih

theorem opp_number {l : List F} (h : ∀ a ∈ l, ∃ x, val a = .fin x ∧ |x| ≤ 2) : (l.map (-·)).map number = (l.map number).map (-1 * ·) := by
  rw [List.map_map, List.map_map]
  refine List.map_congr_left fun a ha => ?_
  obtain ⟨x, hx, _⟩ := h a ha
  simp only [Function.comp_apply]
  rw [number_of hx, number_of ((Opp.neg a).is hx)]
  ring

theorem inverted_ordinary {s : AudioSignal F} (h : OrdinarySamples s) (k : ℕ) : OrdinarySamples (s.inverted k) := by
  intro a ha
  rcases List.mem_append.mp ha with ha | ha
  · rw [List.eq_of_mem_replicate ha]; exact ⟨0, val_0, by norm_num⟩
  · obtain ⟨b, hb, rfl⟩ := List.mem_map.mp ha
    obtain ⟨x, h1, h2⟩ := h b hb
    exact ⟨-x, (Opp.neg b).is h1, by rw [abs_neg]; exact h2⟩

variable [Libm F]

/-- C96, floating point: an ordinary signal and its inverse have the same spectrogram, bit for bit. -/
theorem C96_spectrogram_rounded (nb : ℕ) (fb : FilterBank F) {s : AudioSignal F} {w : AnalysisWindow F} (hs : OrdinarySamples s)
    (hnb : 0 < nb) (hnb2 : nb ≤ 64) (hmf : fb.minFreq = 50.0) (h1k : 1000 ≤ s.sampleRate) (h1m : s.sampleRate ≤ 1000000)
    (h0 : 0 < w.size) (hw : w.size ≤ 2 ^ 17) {fb' : FilterBank F} {sp : Spectrogram F}
    (h : buildSpectrogram nb fb s w = .ok (fb', sp)) : ∃ fb'', buildSpectrogram nb fb ⟨s.data.map (-·), s.sampleRate⟩ w = .ok (fb'', sp) := by
  have h1 : w.size ≤ s.data.length ∧ 0 < w.hop := by
    unfold buildSpectrogram at h
    dsimp only at h
    by_contra hc
    by_cases hl : s.data.length < w.size
    · rw [if_pos hl] at h; cases h
    · rw [if_neg hl, if_pos (by omega)] at h; cases h
  obtain ⟨f1, e1⟩ := buildSpectrogram_eq nb fb s w h1.1 h1.2 h0
  obtain ⟨f2, e2⟩ := buildSpectrogram_eq nb fb (⟨s.data.map (-·), s.sampleRate⟩ : AudioSignal F) w (by simpa using h1.1) h1.2 h0
  rw [e1] at h
  obtain ⟨so, h2, h⟩ := bind_ok h
  cases h
  refine ⟨f2, ?_⟩
  have e : spectroMat nb fb.minFreq (⟨s.data.map (-·), s.sampleRate⟩ : AudioSignal F) w = spectroMat nb fb.minFreq s w := by
    rw [hmf]
    refine spectroMat_opp (tameBank h1k h1m hnb hnb2) (opp_map s.data) rfl (m := 1) (by norm_num) (fun a ha => ?_) hw
    obtain ⟨x, h1, h2⟩ := hs a ha
    exact ⟨x, h1, h2.trans (by norm_num)⟩
  rw [e2, e]
  dsimp only
  rw [h2, ok_bind]

variable [RustFft F] [AccurateFft F]

theorem inverted_aligned (p : Profile) {ref : AudioSignal F} {k : ℕ} (ho : OrdinarySamples ref) (h9 : 9 ≤ ref.data.length)
    (h24 : k + ref.data.length ≤ 2 ^ 24) (hk : k ≤ ref.data.length / 2) (hsr : 1 ≤ ref.sampleRate) (hsr2 : ref.sampleRate ≤ 2 ^ 53)
    (hb : Balanced (ref.data.map number))
    (hloud : (k + ref.data.length : ℕ) * Real.sqrt (k + ref.data.length : ℕ) / 2 ^ 26 +
        5 * (((ref.data.map number).map fun x => |2 * x - 1 / 1000000|).sum / 1000000) <
      ((2 * (ref.data.map number).getD 0 0 - 1 / 1000000) ^ 2 +
        (2 * (ref.data.map number).getD (ref.data.length - 1) 0 - 1 / 1000000) ^ 2) / 2) :
    (∃ l, globallyAlign p ref (ref.inverted k) = .ok (some (⟨ref.data.map (-·), ref.sampleRate⟩, l))) ∧
    ∃ l, globallyAlign p ref ref = .ok (some (ref, l)) := by
  obtain ⟨pad, hpad⟩ := pad_exists p
  have hne : ref.data.map number ≠ [] := by
    rw [Ne, ← List.length_eq_zero_iff, List.length_map]; omega
  have hlm : (ref.data.map number).length = ref.data.length := List.length_map _
  have hl : (ref.inverted k).data.length = k + ref.data.length := by simp [AudioSignal.inverted]
  have hm : max ref.data.length (ref.inverted k).data.length = k + ref.data.length := by omega
  have hdn : (ref.inverted k).data.map number = List.replicate k 0 ++ (ref.data.map number).map (-1 * ·) := by
    unfold AudioSignal.inverted
    rw [List.map_append, List.map_replicate, number_of (val_0 (F := F)), opp_number ho]
  constructor
  · obtain ⟨z, al, l, a1, ⟨lag, a2, a3⟩, a4, a5, _, _⟩ := C70_rounded p hpad ho (inverted_ordinary ho k) (by omega) (by omega) (by omega) (by omega) (by omega) hsr hsr2
    rw [hm, hdn] at a2
    have hlag : lag = -k := nearBest_clear a2 (copy_clear hb hne k (-1) _ _ (by
      rw [hlm, show |(1 : ℝ) - -1| = 2 by norm_num, show |(-1 : ℝ)| = 1 by norm_num, show (1 : ℝ) + 2 * 2 = 5 by norm_num, one_mul]
      exact hloud))
    have hz : z = -k := by
      rw [a3, hlag]
      unfold accepted
      rw [hlm, if_neg (by omega)]
    have hal : al = ⟨ref.data.map (-·), ref.sampleRate⟩ := by
      have hlen : al.data.length = ref.data.length := by
        have := congrArg List.length a5
        rw [hz] at this
        simpa [shift, hl] using this
      obtain ⟨b1, b2⟩ := C39_only_shifts a1
      have hdata : al.data = ref.data.map (-·) := by
        rcases b2 with ⟨b2, _⟩ | ⟨j, b2, _, _, ⟨b3, b4, b5⟩ | ⟨b3, b5⟩⟩
        · have : k = 0 := by rw [b2, hl] at hlen; omega
          rw [b2, this]; simp [AudioSignal.inverted]
        · have : j.natAbs = k := by rw [b5, List.length_drop, hl] at hlen; omega
          rw [b5, this]; simp [AudioSignal.inverted]
        · rw [b5, List.length_append, List.length_replicate, hl] at hlen
          omega
      cases al
      simp only [AudioSignal.mk.injEq]
      exact ⟨hdata, b1⟩
    exact ⟨l, hal ▸ a1⟩
  · have hmono : (ref.data.length : ℝ) * Real.sqrt ref.data.length / 2 ^ 26 ≤ (k + ref.data.length : ℕ) * Real.sqrt (k + ref.data.length : ℕ) / 2 ^ 26 := by
      have : (ref.data.length : ℝ) ≤ (k + ref.data.length : ℕ) := by push_cast; linarith [Nat.cast_nonneg (α := ℝ) k]
      have h2 := Real.sqrt_le_sqrt this
      gcongr
    have hnn : 0 ≤ ((ref.data.map number).map fun x => |2 * x - 1 / 1000000|).sum := List.sum_nonneg fun x hx => by
      obtain ⟨y, _, rfl⟩ := List.mem_map.mp hx
      exact abs_nonneg _
    have hself := C75_clear hb hne 0 (tol := ref.data.length * Real.sqrt ref.data.length / 2 ^ 26) (max (pad ref.data.length) 32)
      (max (pad ref.data.length) 32) (by rw [hlm]; linarith)
    rw [List.replicate_zero, List.nil_append, Int.natCast_zero, neg_zero] at hself
    obtain ⟨l', hl', _⟩ := self_no_delay p hpad ho h9 (by omega) hsr hsr2 hself
    exact ⟨l', hl'⟩

variable [BoundedFft F] [UnitLaws F]

/-- C96, floating point: an inverted copy of the reference, delayed by at most half its length, is scored exactly if the reference compared
with itself is; the scores are numbers, `vnsim` is at least 0.989 and the wideband MOS at least 3.99 (unscaled) or 4.8 (scaled). -/
theorem C96_rounded (p : Profile) (m : Manager F) {ref : AudioSignal F} {k : ℕ} (ho : OrdinarySamples ref) (hs : SoundFrom 0 ref)
    (h9 : 9 ≤ ref.data.length) (h24 : k + ref.data.length ≤ 2 ^ 24) (hk : k ≤ ref.data.length / 2)
    (h1k : 1000 ≤ ref.sampleRate) (h1m : ref.sampleRate ≤ 1000000)
    (hpc : m.patchCreator = .vad 30 ∨ m.patchCreator = .image 20) (hnb : 0 < m.numBands) (hnb2 : m.numBands ≤ 32)
    (hmf : m.filterBank.minFreq = 50.0) (hsw : m.searchWindow ≤ 2 ^ 15)
    (hmap : ∀ v : List F, v.length = m.numBands → (∀ a ∈ v, ∃ x, val a = .fin x ∧ |x| ≤ 2 ^ 18) →
      ∃ q, m.mapper.predict v = .ok q ∧ val q ≠ .nan)
    (hcover : columnCount ref.sampleRate ref.data.length ≤ m.searchWindow * m.patchCreator.patchSize + 1)
    (hd : SmallDrift ref.sampleRate (k + ref.data.length + ref.data.length / 2))
    (hb : Balanced (ref.data.map number))
    (hloud : (k + ref.data.length : ℕ) * Real.sqrt (k + ref.data.length : ℕ) / 2 ^ 26 +
        5 * (((ref.data.map number).map fun x => |2 * x - 1 / 1000000|).sum / 1000000) <
      ((2 * (ref.data.map number).getD 0 0 - 1 / 1000000) ^ 2 +
        (2 * (ref.data.map number).getD (ref.data.length - 1) 0 - 1 / 1000000) ^ 2) / 2) :
    ((∃ x, m.computeResults p ref (ref.inverted k) = .ok x) ↔ ∃ x, m.computeResults p ref ref = .ok x) ∧
    ∀ m' res, m.computeResults p ref (ref.inverted k) = .ok (m', res) → FiniteScores res ∧ 989 / 1000 ≤ number res.vnsim ∧
      ∀ s, m.mapper = .speech s → ∃ z, val res.moslqo = .fin z ∧ (if s then 48 / 10 else 399 / 100) ≤ z ∧ z ≤ 5 := by
  obtain ⟨⟨l, ha⟩, ⟨l', ha'⟩⟩ := inverted_aligned p ho h9 h24 hk (by omega) (by omega) hb hloud
  have hl : (ref.inverted k).data.length = k + ref.data.length := by simp [AudioSignal.inverted]
  have hpw : ∀ a ∈ ref.data, Pw 1 a := fun a ha => by
    obtain ⟨x, h1, h2⟩ := ho a ha
    exact ⟨x, h1, h2.trans (by norm_num)⟩
  have hls : SoundFrom 0 (⟨ref.data.map (-·), ref.sampleRate⟩ : AudioSignal F) := by
    obtain ⟨a, ha, x, h1, h2⟩ := hs
    refine ⟨-a, ?_, -x, (Opp.neg a).is h1, by rw [abs_neg]; exact h2⟩
    rw [List.drop_zero] at ha ⊢
    exact List.mem_map_of_mem ha
  obtain ⟨c1, c2⟩ := succeeds_iff_rounded p m ha hpc hnb (by omega) hmf hmap rfl h1k h1m (by omega) ho (inverted_ordinary ho k) hls
    (drift_mono hd (by omega)) (by rw [hl]; exact hd)
  obtain ⟨d1, _⟩ := succeeds_iff_rounded p m ha' hpc hnb (by omega) hmf hmap rfl h1k h1m (by omega) ho ho hs (drift_mono hd (by omega))
    (drift_mono hd (by omega))
  refine ⟨?_, fun m' res h => ⟨c2 _ _ h, ?_⟩⟩
  · rw [c1, d1]
    simp only [List.length_map]
  · obtain ⟨w1, w2, w3⟩ := ieee_window_facts (F := F) (sr := ref.sampleRate) (by omega) (by omega)
    refine same_result_rounded h hpc hnb2 hmf h1k h1m ho hsw (by omega) hcover ha ?_ (c2 _ _ h)
    rw [scale_opp (opp_map ref.data) hpw (by omega) ?_, hmf]
    · exact spectroMat_opp (tameBank h1k h1m hnb (by omega)) (opp_map ref.data) rfl (m := 1) (by norm_num) hpw (by
        rw [w1]; unfold windowSamples; omega)
    · obtain ⟨a, ha, x, h1, h2⟩ := hs
      exact ⟨a, by simpa using ha, x, h1, h2⟩

/-! ## Examples -/

theorem tone_inverted_loud : ((16000 + 40000 : ℕ) : ℝ) * Real.sqrt (16000 + 40000 : ℕ) / 2 ^ 26 +
      5 * (((tone 10000).map fun x => |2 * x - 1 / 1000000|).sum / 1000000) <
    ((2 * (tone 10000).getD 0 0 - 1 / 1000000) ^ 2 + (2 * (tone 10000).getD (40000 - 1) 0 - 1 / 1000000) ^ 2) / 2 := by
  have ht := tone_length 10000
  obtain ⟨n, hn⟩ : ∃ n, 10000 = n + 1 := ⟨9999, rfl⟩
  have h1 : (n : ℝ) + 1 = 10000 := by exact_mod_cast hn.symm
  have hs : Real.sqrt ((16000 + 40000 : ℕ) : ℝ) ≤ 237 := Real.sqrt_le_iff.mpr ⟨by norm_num, by norm_num⟩
  rw [show 40000 - 1 = (tone 10000).length - 1 by rw [ht], hn, tone_sum, tone_last n, show (tone (n + 1)).getD 0 0 = 1 from rfl]
  push_cast at hs ⊢
  rw [h1]
  norm_num at hs ⊢
  linarith

/-- The hypotheses of `C96_rounded`: two and a half seconds of `tone` against themselves, inverted and a second late, fullband. -/
example (p : Profile) : ∃ m' res, (⟨32, 60, .image 20, .svr ⟨32, fun _ => some (some 3.0)⟩, FilterBank.new 32 50.0⟩ : Manager B64).computeResults p
    ⟨tone64 10000, 16000⟩ (AudioSignal.inverted 16000 ⟨tone64 10000, 16000⟩) = .ok (m', res) ∧ 989 / 1000 ≤ number res.vnsim := by
  obtain ⟨h1, h2⟩ := tone64_val 10000
  have hb : Balanced ((tone64 10000).map number) := by rw [h1]; exact tone_balanced _
  have hl : (tone64 10000).length = 40000 := by
    have := congrArg List.length h1
    rw [List.length_map, tone_length] at this
    rw [this]
  have hloud := tone_inverted_loud
  rw [← h1] at hloud
  have hs : SoundFrom 0 (⟨tone64 10000, 16000⟩ : AudioSignal B64) := by
    obtain ⟨n, hn⟩ : ∃ n, 10000 = n + 1 := ⟨9999, rfl⟩
    refine ⟨1.0, ?_, 1, val_1, ?_⟩
    · rw [hn]
      exact List.mem_cons_self
    · rw [abs_one, div_le_one (by positivity)]
      exact one_le_pow₀ (by norm_num)
  have hdr : ∀ n, SmallDrift 16000 n := drift_16k
  clear h1
  generalize tone64 10000 = t at *
  obtain ⟨_, l, ha⟩ := inverted_aligned p (ref := ⟨t, 16000⟩) (k := 16000) h2 (by show 9 ≤ t.length; omega) (by show 16000 + t.length ≤ _; omega)
    (by show 16000 ≤ t.length / 2; omega) (by norm_num) (by norm_num) hb (by dsimp only; rw [hl]; exact hloud)
  have hself := (C93_fullband_rounded p (⟨32, 60, .image 20, .svr ⟨32, fun _ => some (some 3.0)⟩, FilterBank.new 32 50.0⟩ : Manager B64) ha
    rfl (by norm_num) (by norm_num) rfl (fun v hv _ => svr_answers_b64 hv) rfl (by norm_num) (by norm_num) (by dsimp only; omega) h2 h2 hs
    (hdr _) (hdr _)).1.mpr (by
      dsimp only
      rw [hl, show columnCount 16000 40000 = 122 from rfl, show windowSamples 16000 = 1280 from rfl]
      exact ⟨by norm_num, by norm_num, by norm_num, fun j hj => by omega⟩)
  obtain ⟨c1, c2⟩ := C96_rounded p (⟨32, 60, .image 20, .svr ⟨32, fun _ => some (some 3.0)⟩, FilterBank.new 32 50.0⟩ : Manager B64)
    (ref := ⟨t, 16000⟩) (k := 16000) h2 hs (by show 9 ≤ t.length; omega) (by show 16000 + t.length ≤ _; omega)
    (by show 16000 ≤ t.length / 2; omega) (by norm_num) (by norm_num) (.inr rfl) (by norm_num) (by norm_num) rfl (by norm_num)
    (fun v hv _ => svr_answers_b64 hv) (by
      show columnCount 16000 t.length ≤ 60 * 20 + 1
      rw [hl, show columnCount 16000 40000 = 122 from rfl]; norm_num) (hdr _) hb (by dsimp only; rw [hl]; exact hloud)
  obtain ⟨⟨m', res⟩, h⟩ := c1.mpr hself
  exact ⟨m', res, h, (c2 _ _ h).2.1⟩

/-- The hypotheses of `C96_spectrogram_rounded`: a tenth of a second of `tone`. -/
example (nb : ℕ) (hnb : 0 < nb) (hnb2 : nb ≤ 64) : ∃ fb' fb'' sp,
    buildSpectrogram nb (FilterBank.new nb (50.0 : B64)) ⟨tone64 400, 16000⟩ (AnalysisWindow.mk' 16000 0.25 0.08) = .ok (fb', sp) ∧
    buildSpectrogram nb (FilterBank.new nb (50.0 : B64)) ⟨(tone64 400).map (-·), 16000⟩ (AnalysisWindow.mk' 16000 0.25 0.08) = .ok (fb'', sp) := by
  obtain ⟨w1, w2, w3⟩ := ieee_window_facts (F := B64) (sr := 16000) (by norm_num) (by norm_num)
  obtain ⟨h1, h2⟩ := tone64_val 400
  have hl : (tone64 400).length = 1600 := by
    have := congrArg List.length h1
    rw [List.length_map, tone_length] at this
    rw [this]
  generalize tone64 400 = t at *
  rw [show windowSamples 16000 = 1280 from rfl] at w1 w2
  obtain ⟨fb', sp, h, _⟩ := buildSpectrogram_total' nb (FilterBank.new nb (50.0 : B64)) ⟨t, 16000⟩ (AnalysisWindow.mk' 16000 0.25 0.08)
    (freqsOk (by norm_num) (by norm_num) hnb hnb2) (by rw [w1]; dsimp only; omega) (by rw [w2]; norm_num) (by rw [w1]; norm_num)
  obtain ⟨fb'', h'⟩ := C96_spectrogram_rounded nb (FilterBank.new nb (50.0 : B64)) (s := ⟨t, 16000⟩) (w := AnalysisWindow.mk' 16000 0.25 0.08) h2 hnb hnb2 rfl
    (by norm_num) (by norm_num) (by rw [w1]; norm_num) (by rw [w1]; norm_num) h
  exact ⟨fb', fb'', sp, h, h'⟩

end Visqol
