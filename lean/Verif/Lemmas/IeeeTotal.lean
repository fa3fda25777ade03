import Verif.Lemmas.IeeeCell
import Verif.Lemmas.IeeeStd
import Verif.Lemmas.IeeeLag
import Verif.Lemmas.IeeeSpectro
import Verif.Props.PrepareRounded
import Verif.Lemmas.Total

/-! # Floating point: the stages of a comparison of ordinary signals do not fail -/

set_option linter.unusedSectionVars false

namespace Visqol
open Ieee

variable {F : Type} [Flt F] [Ieee F]

theorem toUsize_nonpos' {a : F} {x : ℝ} (h : Is a x) (hx : x ≤ 0) : Flt.toUsize a = 0 := by
  rw [toUsize_val, h]
  exact real_toUsize_nonpos hx

/-- The time of a delay of `lag` samples. -/
theorem lag_time {lag : ℤ} {sr : ℕ} (hl : lag.natAbs ≤ 2 ^ 40) (h0 : 0 < sr) (hsr : sr < 4294967296) :
    ∃ z, Is (Flt.ofInt lag / Flt.ofNat sr : F) z ∧ |z - lag / sr| ≤ 1 / 2 ^ 50 * (|(lag : ℝ)| / sr) := by
  have hL : Is (Flt.ofInt lag : F) lag := by
    show val _ = _
    rw [val_ofInt, rnd_int F (by rw [Int.abs_eq_natAbs]; omega)]
  have hS : Is (Flt.ofNat sr : F) sr := val_nat (by omega)
  have hs0 : (0 : ℝ) < sr := by exact_mod_cast h0
  have hv := Is.div hL hS hs0.ne'
  have h1 : |(lag : ℝ) / sr| = |(lag : ℝ)| / sr := by rw [abs_div, abs_of_pos hs0]
  have h2 : |(lag : ℝ)| = (lag.natAbs : ℕ) := by rw [← Int.cast_abs, Int.abs_eq_natAbs]; simp
  by_cases hz : lag = 0
  · subst hz
    rw [show ((0 : ℤ) : ℝ) / sr = 0 by simp, rnd_zero] at hv
    exact ⟨0, hv, by simp⟩
  have hn1 : (1 : ℝ) ≤ (lag.natAbs : ℕ) := by exact_mod_cast Int.natAbs_pos.mpr hz
  have hn2 : ((lag.natAbs : ℕ) : ℝ) ≤ 2 ^ 40 := by exact_mod_cast hl
  have hs1 : (1 : ℝ) ≤ sr := by exact_mod_cast h0
  have hs2 : (sr : ℝ) ≤ 2 ^ 32 := by exact_mod_cast hsr.le
  have hlow : (1 : ℝ) / 2 ^ 32 ≤ |(lag : ℝ)| / sr := by
    rw [h2]
    exact div_le_div₀ (by positivity) hn1 hs0 hs2
  have hupp : |(lag : ℝ)| / sr ≤ 2 ^ 40 := by
    rw [h2, div_le_iff₀ hs0]
    nlinarith
  obtain ⟨y, hy, he⟩ := rnd_acc (F := F) ((lag : ℝ) / sr) (by rw [h1]; exact hupp.trans (two_pow_mono (by norm_num)))
  refine ⟨y, hv.trans hy, he.trans ?_⟩
  rw [h1]
  generalize |(lag : ℝ)| / sr = q at *
  have ht : (1 : ℝ) / 2 ^ 1000 ≤ 1 / 2 ^ 100 := tiny_le_pow (by norm_num)
  norm_num at hlow ht ⊢
  linarith

variable [RustFft F] [BoundedFft F] [Libm F]

/-- Global alignment of ordinary signals succeeds. -/
theorem globallyAlign_total' (p : Profile) {ref deg : AudioSignal F} {n : ℕ} (hpr : ∀ a ∈ ref.data, Pw n a)
    (hpd : ∀ a ∈ deg.data, Pw n a) (hn : n ≤ 150) (hr : ref.data ≠ []) (hd : deg.data ≠ [])
    (h2 : 2 ≤ max ref.data.length deg.data.length) (hbig : max ref.data.length deg.data.length ≤ 2 ^ 31)
    (hhalf : ref.data.length / 2 ≤ deg.data.length) :
    ∃ out t, globallyAlign p ref deg = .ok (some (out, t)) ∧ out.sampleRate = deg.sampleRate ∧
      deg.data.length - ref.data.length / 2 ≤ out.data.length ∧ ∀ a ∈ out.data, Pw n a := by
  have key : ∃ out t, globallyAlign p ref deg = .ok (some (out, t)) := by
    obtain ⟨renv, he1, hl1, hp1⟩ := upperEnv_pw (p := p) hpr hr (by omega) (by omega)
    obtain ⟨denv, he2, hl2, hp2⟩ := upperEnv_pw (p := p) hpd hd (by omega) (by omega)
    obtain ⟨lag, hb⟩ := bestLag_total (p := p) hp1 hp2 (by omega) (by omega) (by omega)
    unfold globallyAlign
    rw [he1]
    simp only [ok_bind]
    rw [he2]
    simp only [ok_bind]
    rw [hb]
    simp only [ok_bind]
    split
    · exact ⟨_, _, rfl⟩
    · split
      · rw [sliceM_of_le (by omega) (by omega)]
        exact ⟨_, _, rfl⟩
      · exact ⟨_, _, rfl⟩
  obtain ⟨out, t, h⟩ := key
  refine ⟨out, t, h, (C39_only_shifts h).1, ?_⟩
  obtain ⟨_, ⟨e, _⟩ | ⟨lag, _, h2, _, ⟨_, _, e⟩ | ⟨_, e⟩⟩⟩ := C39_only_shifts h
  · rw [e]; exact ⟨by omega, hpd⟩
  · rw [e, List.length_drop]; exact ⟨by omega, fun a ha => hpd a (List.mem_of_mem_drop ha)⟩
  · rw [e, List.length_append]
    refine ⟨by omega, fun a ha => ?_⟩
    rcases List.mem_append.mp ha with ha | ha
    · rw [List.eq_of_mem_replicate ha]; exact Pw.zero
    · exact hpd a ha

theorem alignAndTruncate_total' (p : Profile) {ref deg : AudioSignal F} {n : ℕ} (hpr : ∀ a ∈ ref.data, Pw n a)
    (hpd : ∀ a ∈ deg.data, Pw n a) (hn : n ≤ 150) (hr : ref.data ≠ []) (hd : deg.data ≠ [])
    (h2 : 2 ≤ max ref.data.length deg.data.length) (hbig : max ref.data.length deg.data.length ≤ 2 ^ 31)
    (hhalf : ref.data.length / 2 ≤ deg.data.length) (hsr : ref.sampleRate = deg.sampleRate) (h0 : 0 < ref.sampleRate)
    (hu32 : ref.sampleRate < 4294967296) :
    ∃ r d t, alignAndTruncate p ref deg = .ok (some (r, d, t)) ∧ r.data.length = d.data.length ∧ r.sampleRate = ref.sampleRate ∧
      d.sampleRate = deg.sampleRate ∧
      min (ref.data.length - ref.data.length / 2) (deg.data.length - ref.data.length / 2) ≤ r.data.length ∧
      (∀ a ∈ r.data, Pw n a) ∧ (∀ a ∈ d.data, Pw n a) ∧ ∃ z, Is t z ∧ |z| * ref.sampleRate ≤ 2 ^ 31 := by
  obtain ⟨out, t, h, h1, h2, h3⟩ := globallyAlign_total' p hpr hpd hn hr hd h2 hbig hhalf
  have hs0 : (0 : ℝ) < ref.sampleRate := by exact_mod_cast h0
  have htime : ∃ (lag : ℤ) (z : ℝ), lag.natAbs ≤ ref.data.length / 2 ∧ Is t z ∧
      |z - lag / ref.sampleRate| ≤ 1 / 2 ^ 50 * (|(lag : ℝ)| / ref.sampleRate) := by
    obtain ⟨_, ⟨_, ht⟩ | ⟨lag, hl0, hl1, ht, hc⟩⟩ := C39_only_shifts h
    · exact ⟨0, 0, by omega, by rw [ht]; exact val_0, by simp⟩
    · obtain ⟨z, hz, hz'⟩ := lag_time (F := F) (lag := lag) (sr := ref.sampleRate) (by omega) h0 hu32
      exact ⟨lag, z, hl1, by rw [ht, ← hsr]; exact hz, hz'⟩
  obtain ⟨lag, z, hl1, hz, hz'⟩ := htime
  have hlabs : |(lag : ℝ)| = (lag.natAbs : ℕ) := by rw [← Int.cast_abs, Int.abs_eq_natAbs]; simp
  have hlag30 : |(lag : ℝ)| ≤ 2 ^ 30 := by
    rw [hlabs]; exact_mod_cast (show lag.natAbs ≤ 2 ^ 30 by omega)
  -- the delay in samples
  have hzs : |z * ref.sampleRate - lag| ≤ 1 / 2 ^ 50 * |(lag : ℝ)| := by
    have e : z * ref.sampleRate - lag = (z - lag / ref.sampleRate) * ref.sampleRate := by field_simp
    rw [e, abs_mul, abs_of_pos hs0]
    calc |z - lag / ref.sampleRate| * ref.sampleRate ≤ 1 / 2 ^ 50 * (|(lag : ℝ)| / ref.sampleRate) * ref.sampleRate :=
          mul_le_mul_of_nonneg_right hz' hs0.le
      _ = 1 / 2 ^ 50 * |(lag : ℝ)| := by field_simp
  have hzs2 : |z * ref.sampleRate - lag| ≤ 1 / 2 ^ 20 := hzs.trans (by norm_num at hlag30 ⊢; linarith)
  have hzb : |z| * ref.sampleRate ≤ 2 ^ 31 := by
    have e : |z| * ref.sampleRate = |z * ref.sampleRate| := by rw [abs_mul, abs_of_pos hs0]
    rw [e]
    have : |z * ref.sampleRate| ≤ |z * ref.sampleRate - lag| + |(lag : ℝ)| := by
      simpa using abs_add_le (z * ref.sampleRate - lag) (lag : ℝ)
    norm_num at *
    linarith
  have hoff : Flt.toUsize (t * (Flt.ofNat ref.sampleRate : F)) ≤ ref.data.length / 2 := by
    have hS : Is (Flt.ofNat ref.sampleRate : F) ref.sampleRate := val_nat (by omega)
    have hmul := Is.mul hz hS
    have hb : |z * (ref.sampleRate : ℝ)| ≤ 2 ^ 31 := by rwa [abs_mul, abs_of_pos hs0]
    obtain ⟨y, hy, he⟩ := rnd_acc (F := F) (z * ref.sampleRate) (hb.trans (two_pow_mono (by norm_num)))
    have hy' : Is (t * (Flt.ofNat ref.sampleRate : F)) y := hmul.trans hy
    have ht : (1 : ℝ) / 2 ^ 1000 ≤ 1 / 2 ^ 100 := tiny_le_pow (by norm_num)
    have he2 : |y - z * ref.sampleRate| ≤ 1 / 2 ^ 10 := by
      refine he.trans ?_
      norm_num at hb ht ⊢
      linarith
    clear he
    have hyl : y ≤ lag + 1 / 2 := by
      have a1 := (abs_le.mp he2).2
      have a2 := (abs_le.mp hzs2).2
      norm_num at a1 a2 ⊢
      linarith
    by_cases hneg : y ≤ 0
    · rw [toUsize_nonpos' hy' hneg]; omega
    · have hy0 : 0 ≤ y := (not_le.mp hneg).le
      have hlnn : 0 ≤ lag := by
        by_contra hc
        have : lag ≤ -1 := by omega
        have : (lag : ℝ) ≤ -1 := by exact_mod_cast this
        linarith
      have hlub : (lag : ℝ) ≤ 2 ^ 30 := (le_abs_self _).trans hlag30
      rw [toUsize_fin hy' hy0 (by norm_num at hlub; linarith)]
      have hfl : ⌊y⌋₊ < lag.natAbs + 1 := by
        rw [Nat.floor_lt hy0]
        have : ((lag.natAbs : ℕ) : ℝ) = lag := by rw [← hlabs, abs_of_nonneg (by exact_mod_cast hlnn)]
        push_cast at this ⊢
        rw [this]
        linarith
      omega
  have key : ∃ r d, alignAndTruncate p ref deg = .ok (some (r, d, t)) := by
    unfold alignAndTruncate
    rw [h]
    simp only [ok_bind]
    split
    · rw [sliceM_of_le (by omega) (by omega), ← hsr, sliceM_of_le (by omega) (by omega)]
      exact ⟨_, _, rfl⟩
    · split
      · rw [sliceM_of_le (by omega) (by omega)]
        exact ⟨_, _, rfl⟩
      · exact ⟨_, _, rfl⟩
  obtain ⟨r, d, hk⟩ := key
  obtain ⟨e1, e2, e3, al, off, e4, er, ed, e5, e6⟩ := C37_equal_length hsr hk
  rw [h] at e4
  cases e4
  refine ⟨r, d, t, hk, e1, e2, e3, ?_, ?_, ?_, z, hz, hzb⟩
  · rcases e6 with e6 | e6
    · omega
    · by_cases hlt : ref.data.length < out.data.length
      · omega
      · unfold alignAndTruncate at hk
        rw [h] at hk
        simp only [ok_bind] at hk
        rw [if_neg hlt] at hk
        split at hk
        · obtain ⟨x, hx, hk⟩ := bind_ok hk
          cases hk
          have := sliceM_ok_length hx
          dsimp only at e5 e1 ⊢
          omega
        · cases hk
          omega
  · intro a ha
    rw [er] at ha
    exact hpr a (List.mem_of_mem_drop (List.mem_of_mem_take ha))
  · intro a ha
    rw [ed] at ha
    exact h3 a (List.mem_of_mem_drop (List.mem_of_mem_take ha))

/-- No entry is negative. -/
def Mat.Nn (m : Mat F) : Prop := ∀ r ∈ m.rows, ∀ a ∈ r, ∃ x, Is a x ∧ 0 ≤ x

omit [Libm F] [RustFft F] [BoundedFft F] in
theorem Mat.Nn.window {m : Mat F} (h : m.Nn) (o len : Nat) : (m.window o len).Nn := by
  intro r hr a ha
  obtain ⟨r', hr', rfl⟩ := List.mem_map.mp hr
  obtain ⟨c, _, rfl⟩ := List.mem_map.mp ha
  cases h1 : r'[o + c]? with
  | none => simp only [List.getD, h1, Option.getD_none]; exact ⟨0, val_0, le_rfl⟩
  | some x => simp only [List.getD, h1, Option.getD_some]; exact h r' hr' x (List.mem_of_getElem? h1)

omit [Libm F] [RustFft F] [BoundedFft F] in
/-- Prepared levels are not negative. -/
theorem prepare_nn {ref deg a b : Mat F} (wr : ref.WF) (wd : deg.WF) (hr : NoInf ref) (hd : NoInf deg)
    (h : prepareSpectrograms ref deg = .ok (a, b)) : b.Nn := by
  obtain ⟨_, h2, _⟩ := C23_rounded wr wd hr hd h
  obtain ⟨_, wb, _⟩ := prepare_shape h wr wd
  intro r hr' x hx
  obtain ⟨i, hi, rfl⟩ := List.mem_iff_getElem.mp hr'
  obtain ⟨j, hj, rfl⟩ := List.mem_iff_getElem.mp hx
  have hl := wb _ hr'
  obtain ⟨v, hv, h0, _⟩ := h2 i hi j (by omega)
  have e : b.at i j = b.rows[i][j] := Mat.at_eq_of_get (List.getElem?_eq_getElem hi) (List.getElem?_eq_getElem hj)
  rw [e] at hv
  exact ⟨v, hv, h0⟩

/-- The deviations and the energies of a patch are numbers and not negative. -/
def SpreadPatch (q : PatchSim F) : Prop :=
  (∀ a ∈ q.freqBandStddevs, ∃ d, Is a d ∧ 0 ≤ d ∧ d ≤ 1092000) ∧ ∀ a ∈ q.freqBandDegEnergy, ∃ x, Is a x ∧ 0 ≤ x ∧ x ≤ 4099

/-- The scores of a patch are numbers. -/
def ScoredPatch (q : PatchSim F) : Prop := Pw 300 q.similarity ∧ (∀ a ∈ q.freqBandMeans, Bd 160000 a) ∧ SpreadPatch q

/-- Comparing patches of at least two columns of prepared levels. -/
theorem measure_spread {p : Profile} {ref deg : Mat F} {q : PatchSim F} (hr : ref.Pw 12) (hd : deg.Pw 12) (hd0 : deg.Nn)
    (wr : ref.WF) (wd : deg.WF) (hs : ref.SameShape deg) (hn0 : 0 < ref.nrows) (hc0 : 2 ≤ ref.ncols) (hcols : ref.ncols ≤ 2 ^ 32)
    (h : measurePatchSimilarity p ref deg = .ok q) : SpreadPatch q := by
  have := measurePatchSimilarity_eq p ref deg wr wd hs hn0 (by omega)
  dsimp only at this
  rw [this] at h
  cases h
  constructor
  · intro a ha
    obtain ⟨r, hr', rfl⟩ := List.mem_map.mp ha
    have hcells : r.length = ref.ncols ∧ ∀ a ∈ r, Bd 156000 a := by
      obtain ⟨i, _, rfl⟩ := List.mem_map.mp hr'
      refine ⟨by simp, fun a ha => ?_⟩
      obtain ⟨j, _, rfl⟩ := List.mem_map.mp ha
      exact simCell_moderate (fun r c => hr.near i j r c) (fun r c => hd.near i j r c)
    obtain ⟨d, h1, h2, h3⟩ := stdRow_bd (by norm_num) (le_trans (by norm_num) (two_pow_mono (m := 18) (by norm_num))) hcells.2
      (by omega) (by omega)
    exact ⟨d, h1, h2, h3.trans (by norm_num)⟩
  · intro a ha
    obtain ⟨r, hr', rfl⟩ := List.mem_map.mp ha
    have hl := wd r hr'
    obtain ⟨y, hy, hyb⟩ := sum_grow (S := 4096) (by rw [hl, ← hs.2]; exact hcols.trans (by norm_num)) (by norm_num)
      (le_trans (by norm_num) (two_pow_mono (m := 18) (by norm_num)))
      (fun a ha => by obtain ⟨x, h1, h2⟩ := hd r hr' a ha; exact ⟨x, h1, h2.trans (by norm_num)⟩)
    rw [hl, ← hs.2] at hyb
    obtain ⟨z, hz, hzb⟩ := mean_tight hy hyb (by omega) hcols (by norm_num) (by norm_num)
    rw [← hs.2]
    have hk : (1 : ℝ) ≤ ref.ncols := by exact_mod_cast (by omega : 1 ≤ ref.ncols)
    have hy0 := Libm.sum_nonneg r y (hd0 r hr') hy
    exact ⟨z, hz, rnd_nonneg (F := F) ((hy.div (val_nat (hcols.trans (by norm_num))) (by linarith)).symm.trans hz) (by positivity),
      (le_abs_self z).trans (hzb.trans (by norm_num))⟩

/-- Comparing two stretches of ordinary samples. -/
theorem compareSlices_total' (p : Profile) {nb : Nat} (hnb : 0 < nb) (hnb2 : nb ≤ 2 ^ 32) (fb : FilterBank F) {w : AnalysisWindow F}
    (h2 : 0 < w.hop) (h3 : 0 < w.size) (hw17 : w.size ≤ 2 ^ 17) {ra da : AudioSignal F} (hsr : ra.sampleRate = da.sampleRate)
    (h0 : 0 < ra.sampleRate) (hu32 : ra.sampleRate < 4294967296) {n : ℕ} (hpr : ∀ a ∈ ra.data, Pw n a) (hpd : ∀ a ∈ da.data, Pw n a)
    (hn : n ≤ 100) (hbank : TameBank nb ra.sampleRate fb.minFreq) (hfreq : FreqsOk nb ra.sampleRate fb.minFreq)
    (hr : 2 * (w.size + w.hop) ≤ ra.data.length) (hd : w.size + w.hop + ra.data.length / 2 ≤ da.data.length)
    (hbig : max ra.data.length da.data.length ≤ 2 ^ 31) :
    ∃ raa daa lag f1 f2 s1 s2 rm dm q, alignAndTruncate p ra da = .ok (some (raa, daa, lag)) ∧
      buildSpectrogram nb fb raa w = .ok (f1, s1) ∧ buildSpectrogram nb f1 daa w = .ok (f2, s2) ∧
      prepareSpectrograms s1.data s2.data = .ok (rm, dm) ∧ measurePatchSimilarity p rm dm = .ok q ∧
      raa.sampleRate = ra.sampleRate ∧ w.size ≤ raa.data.length ∧ raa.data.length ≤ 2 ^ 31 ∧ f2.minFreq = fb.minFreq ∧
      ScoredPatch q ∧ ∃ z, Is lag z ∧ |z| * ra.sampleRate ≤ 2 ^ 31 := by
  obtain ⟨raa, daa, lag, a1, a2, a3, a4, a5, a6, a7, a8⟩ := alignAndTruncate_total' p (ref := ra) (deg := da) hpr hpd (by omega)
    (by intro h; rw [h] at hr; simp at hr; omega) (by intro h; rw [h] at hd; simp at hd; omega) (by omega) hbig (by omega) hsr h0 hu32
  have hw1 : w.size ≤ raa.data.length := by omega
  have hle : raa.data.length ≤ 2 ^ 31 := by
    obtain ⟨_, _, _, al, off, _, er, _⟩ := C37_equal_length hsr a1
    have := congrArg List.length er
    rw [List.length_take, List.length_drop] at this
    omega
  obtain ⟨f1, s1, b1, b2, b3⟩ := buildSpectrogram_total' nb fb raa w (by rw [a3]; exact hfreq) hw1 h2 h3
  obtain ⟨f2, s2, c1, c2, c3⟩ := buildSpectrogram_total' nb f1 daa w (by rw [a4, ← hsr, b3]; exact hfreq) (by omega) h2 h3
  have wf1 := spectroMat_wf nb fb.minFreq raa w
  have wf2 := spectroMat_wf nb f1.minFreq daa w
  have n1 := spectroMat_nrows nb fb.minFreq raa w
  have n2 := spectroMat_nrows nb f1.minFreq daa w
  have m1 : (spectroMat nb fb.minFreq raa w).ncols = numColumns raa.data.length w.size w.hop := rfl
  have m2 : (spectroMat nb f1.minFreq daa w).ncols = numColumns daa.data.length w.size w.hop := rfl
  have hp : 0 < numColumns raa.data.length w.size w.hop := by unfold numColumns; exact Nat.lt_of_lt_of_le Nat.one_pos (Nat.le_add_right _ _)
  have hp3 : 2 ≤ numColumns raa.data.length w.size w.hop := by
    have : 1 ≤ (raa.data.length - w.size) / w.hop := (Nat.le_div_iff_mul_le h2).mpr (by omega)
    unfold numColumns
    omega
  have hp2 := @numColumns_le raa.data.length w.size w.hop
  rw [← a2] at m2
  have i1 : NoInf (spectroMat nb fb.minFreq raa w) := spectroMat_noInf (by rw [a3]; exact hbank) hn a6 hw1 h3 hw17
  have i2 : NoInf (spectroMat nb f1.minFreq daa w) := spectroMat_noInf (by rw [a4, ← hsr, b3]; exact hbank) hn a7 (by omega) h3 hw17
  obtain ⟨rm, dm, d1, d2, d3⟩ := prepare_pw wf1 wf2 (by omega) (by omega) (by omega) (by omega) i1 i2
  have d4 := prepare_nn wf1 wf2 i1 i2 d1
  obtain ⟨w1, w2, q1, q2, q3, q4⟩ := prepare_shape d1 wf1 wf2
  obtain ⟨q, e1⟩ := measure_of_shape p w1 w2 ⟨by omega, by omega⟩ (by omega) (by omega)
  obtain ⟨e0, _⟩ := measure_pw d2 d3 (by omega) w1 w2 ⟨by omega, by omega⟩ (by omega) (by omega) (by omega) (by omega) e1
  have e2 := measure_moderate d2 d3 w1 w2 ⟨by omega, by omega⟩ (by omega) (by omega) (by omega) e1
  have e3 := measure_spread d2 d3 d4 w1 w2 ⟨by omega, by omega⟩ (by omega) (by omega) (by omega) e1
  exact ⟨raa, daa, lag, f1, f2, s1, s2, rm, dm, q, a1, b1, c1, by rw [b2, c2]; exact d1, e1, a3, hw1, hle, c3.trans b3,
    ⟨e0.mono (by omega), e2, e3⟩, a8⟩

end Visqol
