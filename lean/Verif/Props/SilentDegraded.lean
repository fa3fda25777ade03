import Verif.Lemmas.First
import Verif.Lemmas.IeeeAlign
import Verif.Lemmas.IeeeSilent
import Verif.Props.NoFailure
import Verif.Props.Loading
import Verif.Num.Binary64

/-! # A silent degraded signal (C46) -/

namespace Visqol
variable {F : Type} [Flt F] [Ieee F]

open Ieee

theorem silent_square {l : List F} (h : Silent l) : Silent (l.map fun x => x * x) := by
  intro b hb
  obtain ⟨a, ha, rfl⟩ := List.mem_map.mp hb
  rw [Is.mul (h a ha) (h a ha), mul_zero, rnd_zero]

theorem silent_iterSum {l : List F} (h : Silent l) : val (Flt.iterSum l) = .fin 0 := by
  unfold Flt.iterSum
  have : ∀ (l : List F) (z : F), Silent l → val z = .fin 0 → val (l.foldl (· + ·) z) = .fin 0 := by
    intro l
    induction l with
    | nil => intro z _ hz; exact hz
    | cons a l ih =>
      intro z hl hz
      refine ih _ (fun b hb => hl b (by simp [hb])) ?_
      rw [Is.add hz (hl a (by simp)), add_zero, rnd_zero]
  exact this l 0.0 h val_0

/-- The reference pressure is a positive number. -/
theorem val_pressure : ∃ y, val (0.00002 : F) = .fin y ∧ 0 < y := by
  obtain ⟨y, hy, he⟩ := rnd_rel F (x := 2 / 100000) (.inr ⟨by
    rw [div_le_div_iff₀ (by positivity) (by norm_num)]
    have : (2 : ℝ) ^ 20 ≤ 2 ^ 900 := pow_le_pow_right₀ (by norm_num) (by norm_num)
    generalize (2 : ℝ) ^ 900 = P at *
    norm_num at this
    linarith, by
    have : (1 : ℝ) ≤ 2 ^ 900 := one_le_pow₀ (by norm_num)
    generalize (2 : ℝ) ^ 900 = P at *
    linarith⟩)
  refine ⟨y, ?_, ?_⟩
  · rw [← hy]
    exact val_lit (by norm_num)
  · have := (abs_le.mp he).1
    norm_num at this
    linarith

/-- The level of a silent signal is minus infinity. -/
theorem silent_spl {l : List F} (h : Silent l) (hne : l ≠ []) (hl : l.length ≤ 2 ^ 53) :
    val (soundPressureLevel l) = .inf true := by
  unfold soundPressureLevel
  dsimp only
  have h1 := silent_iterSum (silent_square h)
  have hn : (l.length : ℝ) ≠ 0 := by
    have := List.length_pos_iff.mpr hne
    exact_mod_cast this.ne'
  have h2 : val (Flt.iterSum (l.map fun x => x * x) / (Flt.ofNat l.length : F)) = .fin 0 := by
    rw [Is.div h1 (val_nat hl) hn, zero_div, rnd_zero]
  have h3 : val (Flt.sqrt (Flt.iterSum (l.map fun x => x * x) / (Flt.ofNat l.length : F))) = .fin 0 := by
    rw [val_sqrt, h2]
    show (if (0 : ℝ) < 0 then Val.nan else rnd F (Real.sqrt 0)) = _
    rw [if_neg (lt_irrefl _), Real.sqrt_zero, rnd_zero]
  obtain ⟨y, hy, hy0⟩ := val_pressure (F := F)
  have h4 : val (Flt.sqrt (Flt.iterSum (l.map fun x => x * x) / (Flt.ofNat l.length : F)) / (0.00002 : F)) = .fin 0 := by
    rw [Is.div h3 hy hy0.ne', zero_div, rnd_zero]
  rw [val_mul, val_20, log10_zero _ h4]
  show (if (20 : ℝ) = 0 then Val.nan else .inf (true != decide ((20 : ℝ) < 0))) = _
  norm_num

/-- Level matching turns a silent signal into NaN. -/
theorem silent_scaled {ref deg : AudioSignal F} (h : Silent deg.data) (hl : deg.data.length ≤ 2 ^ 53) :
    AllNaN (scaleToMatchSpl ref deg).data := by
  intro b hb
  unfold scaleToMatchSpl at hb
  obtain ⟨a, ha, rfl⟩ := List.mem_map.mp hb
  have hspl := silent_spl h (List.ne_nil_of_mem ha) hl
  have h1 : val (soundPressureLevel ref.data - soundPressureLevel deg.data) = .nan ∨
      val (soundPressureLevel ref.data - soundPressureLevel deg.data) = .inf false := by
    rw [val_sub, hspl]
    cases val (soundPressureLevel ref.data) with
    | nan => exact .inl rfl
    | inf s => cases s <;> simp [Val.neg, Val.add]
    | fin x => exact .inr rfl
  have h2 : val (Flt.powf (10.0 : F) ((soundPressureLevel ref.data - soundPressureLevel deg.data) / 20.0)) = .nan ∨
      val (Flt.powf (10.0 : F) ((soundPressureLevel ref.data - soundPressureLevel deg.data) / 20.0)) = .inf false := by
    rcases h1 with h1 | h1
    · exact .inl (powf_nan _ _ 10 val_10 (by norm_num) (div_nan _ _ (.inl h1)))
    · right
      rw [powf_inf _ _ 10 false val_10 (by norm_num) (inf_div _ _ _ 20 h1 val_20 (by norm_num))]
      rfl
  rcases h2 with h2 | h2
  · exact nan_mul (.inr h2)
  · rw [val_mul, h a ha, h2]
    simp [Val.mul]

/-- A shifted silent signal is silent. -/
theorem silent_aligned {p : Profile} [RustFft F] {ref deg out : AudioSignal F} {t : F} (h : Silent deg.data)
    (ha : globallyAlign p ref deg = .ok (some (out, t))) : Silent out.data := by
  obtain ⟨_, ⟨e, _⟩ | ⟨lag, _, _, _, ⟨_, _, e⟩ | ⟨_, e⟩⟩⟩ := C39_only_shifts ha
  · rw [e]; exact h
  · rw [e]; exact fun a ha => h a (List.mem_of_mem_drop ha)
  · rw [e]
    intro a ha
    rcases List.mem_append.mp ha with h1 | h1
    · rw [List.eq_of_mem_replicate h1]; exact val_0
    · exact h a h1

/-- The first patch of a reference begins at column 14 (wideband) or 9 (fullband). -/
theorem first_index {p : Profile} {pc : PatchCreator} (hpc : pc = .vad 30 ∨ pc = .image 20) {m : Mat F} {ref : AudioSignal F}
    {w : AnalysisWindow F} (hs : w.size ≤ ref.data.length) (hh : 0 < w.hop) (h0 : 0 < w.size)
    (hm : m.ncols = numColumns ref.data.length w.size w.hop) (hlen : ref.data.length < 9223372036854775808) {ix : List Nat}
    (hix : pc.indices p m.ncols ref w = .ok ix) {ps : List (Mat F)} (hc : createPatches pc.patchSize m ix = .ok ps) :
    ix[0]? = some (pc.patchSize / 2 - 1) ∧ 2 ≤ pc.patchSize ∧ pc.patchSize ≤ 30 := by
  rcases hpc with rfl | rfl
  · refine ⟨?_, by decide, by decide⟩
    by_cases h44 : m.ncols < 44
    · obtain ⟨q, hq⟩ := C27_patches_panic p h44 hh hlen
      rw [bind_of_ok hix] at hq
      rw [show createPatches 30 m ix = .ok ps from hc] at hq
      cases hq
    · have h26 := C26_wideband p (m := m) hs hh h0 hm (by omega)
      cases hn : normalizeSignal ref.data with
      | error e => rw [(h26.2 e hn).2] at hix; cases hix
      | ok norm =>
        obtain ⟨ix', h1, h2, _, h4, _⟩ := h26.1 norm hn
        rw [hix] at h1
        cases h1
        have hpw : ix.Pairwise (· < ·) := by
          apply List.Pairwise.sublist h2
          rw [List.pairwise_map]
          exact List.pairwise_lt_range.imp fun h => by omega
        cases ix with
        | nil => simp at h4
        | cons a t =>
          show some a = some 14
          rcases List.mem_cons.mp h4 with h | h
          · rw [h]
          · have := (List.pairwise_cons.mp hpw).1 14 h
            obtain ⟨k, _, hk⟩ := List.mem_map.mp (h2.subset (List.mem_cons_self (a := a)))
            omega
  · refine ⟨?_, by decide, by decide⟩
    by_cases h30 : m.ncols < 30
    · rw [C25_too_small p h30] at hix; cases hix
    · obtain ⟨k, hk1, hk2, _⟩ := C25_tiling p (m := m) (by omega) ref w
      rw [hk2] at hix
      rw [← Except.ok.inj hix]
      obtain ⟨j, rfl⟩ := Nat.exists_eq_succ_of_ne_zero (by omega : k ≠ 0)
      rw [List.range_succ_eq_map]
      rfl

/-- The start of a column, in quarter windows, is inside the signal. -/
theorem column_strict {len W i : Nat} (h0 : 0 < W) (hW : W ≤ len) (hi : i < numColumns len W (W / 4))
    (hdrift : numColumns len W (W / 4) * (W % 4) ≤ 4 * W) : i * W < 4 * len := by
  unfold numColumns at hi
  have h1 : i * (W / 4) ≤ len - W := (Nat.mul_le_mul_right _ (by omega)).trans (Nat.div_mul_le_self _ _)
  have h3 : i * W = 4 * (i * (W / 4)) + i * (W % 4) := by
    conv_lhs => rw [← Nat.div_add_mod W 4, Nat.mul_add]
    ring
  rw [h3]
  by_cases hz : W % 4 = 0
  · rw [hz, Nat.mul_zero]
    generalize i * (W / 4) = A at *
    omega
  · have h2 : i * (W % 4) < 4 * W := by
      refine lt_of_lt_of_le ?_ hdrift
      refine Nat.mul_lt_mul_of_pos_right (by unfold numColumns; omega) (by omega)
    generalize i * (W / 4) = A at *
    generalize i * (W % 4) = B at *
    omega

/-- A number near a positive one is not zero. -/
theorem Rel.ne_zero {a : F} {x e y : ℝ} (h : Rel a x e) (h0 : 0 < x) (he : e < 1) (hy : val a = .fin y) : y ≠ 0 := by
  rintro rfl
  obtain ⟨_, z, hz, h2⟩ := h
  rw [Is, hy] at hz
  cases hz
  rw [zero_sub, abs_neg, abs_of_pos h0] at h2
  nlinarith

/-- The test for a patch without match fails for a patch with one. -/
theorem matched_not_skipped {W sr o k : ℕ} (hW0 : 0 < W) (hW : W ≤ 2 ^ 40) (h0 : 0 < sr) (hsr : sr < 4294967296)
    (hok : (o + k) * W ≤ 2 ^ 42) (ho : o ≤ 2 ^ 42) (hk : k ≤ 2 ^ 42) (hk0 : 0 < k) {fd : F}
    (hfd : fd = Flt.ofNat W * 0.25 / Flt.ofNat sr) :
    (Flt.eq (Flt.ofNat o * fd) (Flt.ofNat o * fd + fd * Flt.ofNat k) && Flt.eq (Flt.ofNat o * fd) 0.0) = false := by
  obtain ⟨_, t2, t3, _, _⟩ := frame_times (F := F) (k := k) hW h0 hsr hok ho hk hfd
  have hden : (0 : ℝ) < ((4 * sr : ℕ) : ℝ) := by exact_mod_cast (by omega : 0 < 4 * sr)
  have he : (1 : ℝ) / 2 ^ 47 < 1 := by norm_num
  obtain ⟨z1, y1, hy1, e1⟩ := id t2
  obtain ⟨z2, y2, hy2, e2⟩ := id t3
  rw [Is.eq hy1 hy2, Is.eq hy1 val_0, Bool.and_eq_false_iff, decide_eq_false_iff_not, decide_eq_false_iff_not]
  by_cases ho0 : o = 0
  · left
    rintro rfl
    subst ho0
    simp only [zero_mul, Nat.cast_zero, zero_div, mul_zero, sub_zero, abs_nonpos_iff] at e1
    refine t3.ne_zero (div_pos ?_ hden) he hy2 e1
    exact_mod_cast Nat.mul_pos (by omega : 0 < 0 + k) hW0
  · right
    refine t2.ne_zero (div_pos ?_ hden) he hy1
    exact_mod_cast Nat.mul_pos (Nat.pos_of_ne_zero ho0) hW0

theorem window_reach {s pp : Nat} (hs : 1 ≤ s) (hr : 14 + 30 * s ≤ 2147483647) (h2 : pp ≤ 30) :
    ((pp / 2 - 1 : Nat) : Int) ≤ (s : Int) * pp ∧ ((pp / 2 - 1 : Nat) : Int) + (s : Int) * pp ≤ 2147483647 ∧
      wrapI32 (s : Int) = s := by
  have h1 : s * pp ≤ s * 30 := Nat.mul_le_mul_left _ h2
  have h3 : 1 * pp ≤ s * pp := Nat.mul_le_mul_right _ hs
  refine ⟨?_, ?_, wrapI32_of_mem (by omega) (by omega)⟩
  · have : pp / 2 - 1 ≤ s * pp := by omega
    exact_mod_cast this
  · have : pp / 2 - 1 + s * pp ≤ 2147483647 := by omega
    exact_mod_cast this

theorem times_fit {o pp W len : Nat} (h1 : pp ≤ 30) (hW : W ≤ len) (hin : o * W < 4 * len) (hlen : len ≤ 2 ^ 36) (h0 : 0 < W) :
    (o + pp) * W ≤ 2 ^ 42 ∧ o ≤ 2 ^ 42 ∧ pp ≤ 2 ^ 42 ∧ W ≤ 2 ^ 40 ∧ len ≤ 2 ^ 53 := by
  have h2 : pp * W ≤ 30 * W := Nat.mul_le_mul_right _ h1
  have h3 : o * 1 ≤ o * W := Nat.mul_le_mul_left _ h0
  rw [Nat.add_mul]
  norm_num at hlen ⊢
  generalize o * W = X at *
  generalize pp * W = Y at *
  omega

variable [RustFft F] [NanFft F]

/-- No result if level matching gives NaN. -/
theorem nan_no_result {p : Profile} {m : Manager F} {ref deg al : AudioSignal F} {lag : F} {res : SimilarityResult F}
    (hal : globallyAlign p ref deg = .ok (some (al, lag)))
    (st : Stages p m.numBands m.filterBank ref al (AnalysisWindow.mk' ref.sampleRate 0.25 0.08) m.patchCreator m.mapper
      m.searchWindow res)
    (hm : m.patchCreator = .vad 30 ∨ m.patchCreator = .image 20) (hr1 : 1 ≤ m.searchWindow)
    (hr2 : 14 + 30 * m.searchWindow ≤ 2147483647) (hsr : ref.sampleRate = deg.sampleRate) (h0 : 0 < ref.sampleRate)
    (hsr32 : ref.sampleRate < 4294967296) (hlen : ref.data.length + deg.data.length ≤ 2 ^ 36)
    (hdrift : SmallDrift ref.sampleRate (deg.data.length + ref.data.length / 2))
    (hnan : AllNaN (scaleToMatchSpl ref al).data) : False := by
  have hal_len := globallyAlign_length hal
  have hal_sr := (C39_only_shifts hal).1
  have hal36 : al.data.length ≤ 2 ^ 36 := le_trans (by omega) hlen
  have href36 : ref.data.length ≤ 2 ^ 36 := le_trans (by omega) hlen
  have h63 : (2 : ℕ) ^ 36 + 1 < 9223372036854775808 := by norm_num
  clear hlen
  have hW := ieee_window (F := F) hsr32
  have hhop : (AnalysisWindow.mk' ref.sampleRate (0.25 : F) 0.08).hop = windowSamples ref.sampleRate / 4 := by
    rw [← hW]
    refine ieee_hop ?_
    show (AnalysisWindow.mk' ref.sampleRate (0.25 : F) 0.08).size ≤ _
    exact st.hsr.trans (href36.trans (by norm_num))
  obtain ⟨s1, s2, s3, s4, s5, s6⟩ := st.shapes
  obtain ⟨hi0, hps2, hps30⟩ := first_index hm st.hsr st.hhop st.hsize s5 (href36.trans_lt (by norm_num)) st.ixs st.created
  obtain ⟨c1, c2⟩ := createPatches_ok st.created s1
  obtain ⟨g1, g2, hrad⟩ := window_reach hr1 hr2 hps30
  have hfound := st.found
  rw [hrad] at hfound
  have hsize := st.hsize
  have hhop0 := st.hhop
  have hsd := st.hsd
  rw [hW] at hsize hsd
  rw [hhop] at hhop0
  rw [hW, hhop] at s6
  have hN : st.degM.ncols < 9223372036854775808 := by
    rw [s6]
    refine lt_of_le_of_lt numColumns_le (lt_of_le_of_lt ?_ h63)
    rw [Nat.add_comm]
    exact Nat.succ_le_succ hal36
  obtain ⟨q, o, r, hq, ho, hr, hmatch, hrs, hre⟩ := find_first hfound c1 s2 hN (fun q hq => (c2 q hq).2.2) hi0 g1 g2
    (hps30.trans (by norm_num))
  obtain ⟨f, f', r', hfp, _, _⟩ := (finelyAlign_each st.fine).2 0 r hr
  have hin : o * windowSamples ref.sampleRate < 4 * al.data.length := by
    refine column_strict hsize hsd (by rw [← s6]; exact ho) ?_
    unfold SmallDrift at hdrift
    rw [columnCount_eq] at hdrift
    exact le_trans (Nat.mul_le_mul_right _ (numColumns_mono hal_len)) hdrift
  obtain ⟨a1, a2, a3, a4, a5⟩ := times_fit hps30 hsd hin hal36 hsize
  have hsr' : (scaleToMatchSpl ref al).sampleRate = ref.sampleRate := by
    show al.sampleRate = _
    rw [hal_sr, hsr]
  have hfd : (Flt.ofNat (AnalysisWindow.mk' ref.sampleRate (0.25 : F) 0.08).size *
      (AnalysisWindow.mk' ref.sampleRate (0.25 : F) 0.08).overlap / Flt.ofNat ref.sampleRate : F) =
      Flt.ofNat (windowSamples ref.sampleRate) * 0.25 / Flt.ofNat ref.sampleRate := by
    rw [hW]
    rfl
  unfold finelyAlignPatch at hfp
  rw [hmatch.start, hmatch.stop, matched_not_skipped hsize a4 h0 hsr32 a1 a2 a3 (by omega) hfd, if_neg (by simp)] at hfp
  obtain ⟨ra, _, hfp⟩ := bind_ok hfp
  obtain ⟨da, hda, hfp⟩ := bind_ok hfp
  obtain ⟨_, a, t, hd1, hd2⟩ := slice_first (by omega) a4 (by rw [hsr']; exact h0) (by rw [hsr']; exact hsr32) a1 hps2
    (by simpa [scaleToMatchSpl] using hin) (by rw [hsr']; exact hfd) hda
  obtain ⟨o', hal', hfp⟩ := bind_ok hfp
  cases o' with
  | none => cases hfp
  | some y => exact alignAndTruncate_nan ⟨a, t, hd1, hnan a hd2⟩ hal'

/-- C46: with a silent degraded signal no result is returned, for any reference, if the search radius is at least 1 (and such that
the search window fits into 32 bits).  The sizes are far above those of sound files. -/
theorem C46_silent_degraded {p : Profile} {m : Manager F} {ref deg : AudioSignal F}
    (hm : m.patchCreator = .vad 30 ∨ m.patchCreator = .image 20) (hr1 : 1 ≤ m.searchWindow)
    (hr2 : 14 + 30 * m.searchWindow ≤ 2147483647) (hsr : ref.sampleRate = deg.sampleRate) (h0 : 0 < ref.sampleRate)
    (hsr32 : ref.sampleRate < 4294967296) (hlen : ref.data.length + deg.data.length ≤ 2 ^ 36)
    (hdrift : SmallDrift ref.sampleRate (deg.data.length + ref.data.length / 2))
    (hsilent : Silent deg.data) (x : Manager F × SimilarityResult F) : m.computeResults p ref deg ≠ .ok x := by
  intro h
  obtain ⟨al, lag, hal, ⟨st⟩⟩ := computeResults_stages (m' := x.1) (res := x.2) h
  refine nan_no_result hal st hm hr1 hr2 hsr h0 hsr32 hlen hdrift (silent_scaled (silent_aligned hsilent hal) ?_)
  have := globallyAlign_length hal
  exact le_trans (by omega) (hlen.trans (by norm_num))

omit [Ieee F] [RustFft F] [NanFft F] in
/-- What a loaded file has in common with its header. -/
theorem load_facts {c sr bits : Nat} {s : List Int} {sig : AudioSignal F} (h : loadAsMono (.wav c sr bits (some s)) = .ok sig) :
    0 < c ∧ sig.sampleRate = sr ∧ sig.data.length = s.length / c ∧
      sig.data = ((chunksOf c (s.length / c) (normalizeInt16 (F := F) (s.map wrapI16))).map Flt.sum).map (· / Flt.ofNat c) := by
  unfold loadAsMono WavFile.open at h
  dsimp only at h
  obtain ⟨w, hw, h⟩ := bind_ok h
  split at hw
  · cases hw
  cases hw
  obtain ⟨fr, hf, h⟩ := bind_ok h
  cases h
  unfold extractMultichannel at hf
  dsimp only at hf
  split at hf
  · split at hf <;> cases hf
  · split at hf
    · cases hf
      refine ⟨by omega, rfl, ?_, ?_⟩
      · simp [chunksOf_length, normalizeInt16]
      · simp [normalizeInt16]
    · cases hf

omit [RustFft F] [NanFft F] in
/-- A file whose samples are all 0 loads as a silent signal. -/
theorem load_silent {c sr bits : Nat} {s : List Int} {sig : AudioSignal F} (h : loadAsMono (.wav c sr bits (some s)) = .ok sig)
    (hc : c ≤ 2 ^ 53) (hs : ∀ x ∈ s, x = 0) : Silent sig.data := by
  obtain ⟨h0, _, _, hd⟩ := load_facts h
  rw [hd]
  intro b hb
  obtain ⟨t, ht, rfl⟩ := List.mem_map.mp hb
  obtain ⟨fr, hf, rfl⟩ := List.mem_map.mp ht
  have hz : ∀ a ∈ fr, val a = .fin 0 := by
    intro a ha
    obtain ⟨i, hi, he⟩ := List.getElem_of_mem hf
    rw [chunksOf_length] at hi
    have hg := chunksOf_get c (s.length / c) (normalizeInt16 (F := F) (s.map wrapI16)) i hi
    rw [List.getElem?_eq_getElem (by rw [chunksOf_length]; exact hi), he] at hg
    cases hg
    obtain ⟨x, hx, rfl⟩ := List.mem_map.mp (List.mem_of_mem_drop (List.mem_of_mem_take ha))
    obtain ⟨y, hy, rfl⟩ := List.mem_map.mp hx
    rw [hs y hy]
    have h1 : val (Flt.ofInt (wrapI16 0) : F) = .fin 0 := by
      rw [show wrapI16 0 = 0 from rfl, val_ofInt, Int.cast_zero, rnd_zero]
    have h2 : val (32767.0 : F) = .fin 32767 := by
      have := val_litnat (F := F) (m := 327670) (e := 1) (k := 32767) (by norm_num) (by norm_num)
      rw [this]
      norm_num
    rw [Is.div h1 h2 (by norm_num), zero_div, rnd_zero]
  have hsum := sum_nat fr (List.replicate fr.length 0) (by
    rw [List.map_replicate, Nat.cast_zero]
    exact List.eq_replicate_iff.mpr ⟨by simp, fun a ha => by
      obtain ⟨b, hb, rfl⟩ := List.mem_map.mp ha
      exact hz b hb⟩) (by simp)
  rw [List.sum_replicate, smul_zero, Nat.cast_zero] at hsum
  have hc0 : (c : ℝ) ≠ 0 := by exact_mod_cast h0.ne'
  rw [Is.div hsum (val_nat hc) hc0, zero_div, rnd_zero]

/-- C46 for `run`: a degraded file whose samples are all 0 never gets a score. -/
theorem C46_run {p : Profile} {world : World F} {m : Manager F} {r d : String} {cr cd sr srd bits bits' : Nat} {s t : List Int}
    (hr : world.wav r = .wav cr sr bits (some s)) (hd : world.wav d = .wav cd srd bits' (some t)) (hzero : ∀ x ∈ t, x = 0)
    {u : Variant} {nb radius : Nat} (hm : Manager.new world nb u radius = .ok m) (hr1 : 1 ≤ radius)
    (hr2 : 14 + 30 * radius ≤ 2147483647) (h0 : 0 < sr) (hsr : sr < 4294967296) (hcd : cd < 65536)
    (hlen : s.length / cr + t.length / cd ≤ 2 ^ 36) (hdrift : SmallDrift sr (t.length / cd + s.length / cr / 2))
    (x : Manager F × SimilarityResult F) : m.run p world r d ≠ .ok x := by
  intro h
  obtain ⟨ref, deg, h1, h2, h3, h4⟩ := run_ok (m' := x.1) (res := x.2) h
  rw [hr] at h1
  rw [hd] at h2
  obtain ⟨_, a2, a3, _⟩ := load_facts h1
  obtain ⟨_, b2, b3, _⟩ := load_facts h2
  have hpc : (m.patchCreator = .vad 30 ∨ m.patchCreator = .image 20) ∧ m.searchWindow = radius := by
    cases u with
    | wideband u => cases hm; exact ⟨.inl rfl, rfl⟩
    | fullband path =>
      obtain ⟨v, _, hm⟩ := bind_ok hm
      cases hm
      exact ⟨.inr rfl, rfl⟩
  refine C46_silent_degraded hpc.1 (by rw [hpc.2]; exact hr1) (by rw [hpc.2]; exact hr2) h3 (by rw [a2]; exact h0)
    (by rw [a2]; exact hsr) (by rw [a3, b3]; exact hlen) (by rw [a2, a3, b3]; exact hdrift)
    (load_silent h2 (le_trans hcd.le (by norm_num)) hzero) _ h4

/-- One second of a steady tone level and one second of silence at 16 kHz, with the default search radius. -/
example (p : Profile) (world : World B64) (hr : world.wav "ref.wav" = .wav 1 16000 16 (some (List.replicate 16000 1000)))
    (hd : world.wav "deg.wav" = .wav 1 16000 16 (some (List.replicate 16000 0))) {m : Manager B64}
    (hm : Manager.new world 21 (.wideband false) 60 = .ok m) (x : Manager B64 × SimilarityResult B64) :
    m.run p world "ref.wav" "deg.wav" ≠ .ok x := by
  refine C46_run hr hd (fun y hy => List.eq_of_mem_replicate hy) hm (by norm_num) (by norm_num) (by norm_num) (by norm_num)
    (by norm_num) (by simp only [List.length_replicate]; norm_num) ?_ x
  unfold SmallDrift windowSamples
  norm_num

end Visqol
