import Verif.Lemmas.IeeeMatch
import Verif.Props.SilentDegraded

/-! # A silent reference (C47) -/

set_option linter.unusedSectionVars false

namespace Visqol
variable {F : Type} [Flt F] [Ieee F]

open Ieee

/-- Every sample is a number. -/
def Finite (l : List F) : Prop := ∀ a ∈ l, ∃ x, val a = .fin x

theorem finite_aligned {p : Profile} [RustFft F] {ref deg out : AudioSignal F} {t : F} (h : Finite deg.data)
    (ha : globallyAlign p ref deg = .ok (some (out, t))) : Finite out.data := by
  obtain ⟨_, ⟨e, _⟩ | ⟨lag, _, _, _, ⟨_, _, e⟩ | ⟨_, e⟩⟩⟩ := C39_only_shifts ha
  · rw [e]; exact h
  · rw [e]; exact fun a ha => h a (List.mem_of_mem_drop ha)
  · rw [e]
    intro a ha
    rcases List.mem_append.mp ha with h1 | h1
    · rw [List.eq_of_mem_replicate h1]; exact ⟨_, val_0⟩
    · exact h a h1

/-- Level matching with a silent reference makes a signal silent, or turns it into NaN. -/
theorem scaled_to_silence {ref deg : AudioSignal F} (h : Silent ref.data) (hne : ref.data ≠ []) (hl : ref.data.length ≤ 2 ^ 53)
    (hd : Finite deg.data) : Silent (scaleToMatchSpl ref deg).data ∨ AllNaN (scaleToMatchSpl ref deg).data := by
  have hspl := silent_spl h hne hl
  have h1 : val (soundPressureLevel ref.data - soundPressureLevel deg.data) = .nan ∨
      val (soundPressureLevel ref.data - soundPressureLevel deg.data) = .inf true := by
    rw [val_sub, hspl]
    cases val (soundPressureLevel deg.data) with
    | nan => exact .inl rfl
    | inf s => cases s <;> simp [Val.neg, Val.add]
    | fin x => exact .inr rfl
  unfold scaleToMatchSpl
  rcases h1 with h1 | h1
  · right
    intro b hb
    obtain ⟨a, ha, rfl⟩ := List.mem_map.mp hb
    exact nan_mul (.inr (powf_nan _ _ 10 val_10 (by norm_num) (div_nan _ _ (.inl h1))))
  · left
    intro b hb
    obtain ⟨a, ha, rfl⟩ := List.mem_map.mp hb
    obtain ⟨x, hx⟩ := hd a ha
    have h2 : val (Flt.powf (10.0 : F) ((soundPressureLevel ref.data - soundPressureLevel deg.data) / 20.0)) = .fin 0 := by
      rw [powf_inf _ _ 10 true val_10 (by norm_num) (inf_div _ _ _ 20 h1 val_20 (by norm_num))]
      rfl
    rw [Is.mul hx h2, mul_zero, rnd_zero]

theorem silent_slice {s out : AudioSignal F} {a b : F} (h : Silent s.data) (hs : sliceSignal s a b = .ok out) : Silent out.data := by
  unfold sliceSignal at hs
  dsimp only at hs
  obtain ⟨d, hd, hs⟩ := bind_ok hs
  obtain ⟨_, _, rfl⟩ := sliceM_ok hd
  cases hs
  dsimp only
  have h1 : ∀ n, Silent (List.replicate n (0.0 : F)) := fun n a ha => by rw [List.eq_of_mem_replicate ha]; exact val_0
  have h2 : ∀ {l l' : List F}, Silent l → Silent l' → Silent (l ++ l') := fun hl hl' a ha =>
    (List.mem_append.mp ha).elim (hl a) (hl' a)
  have h3 : ∀ n k, Silent ((s.data.drop n).take k) := fun n k a ha => h a (List.mem_of_mem_drop (List.mem_of_mem_take ha))
  split
  · refine h2 (h1 _) ?_
    split
    · exact h2 (h3 _ _) (h1 _)
    · exact h3 _ _
  · split
    · exact h2 (h3 _ _) (h1 _)
    · exact h3 _ _

theorem toUsize_bound {a : F} {N : ℕ} (h : val a = .inf true ∨ ∃ z, val a = .fin z ∧ z ≤ N) : Flt.toUsize a ≤ N := by
  rw [toUsize_val]
  rcases h with h | ⟨z, h, hz⟩ <;> rw [h]
  · simp [Val.toUsize]
  · show (realToInt 0 18446744073709551615 z).toNat ≤ N
    have : realTrunc z ≤ N := by
      unfold realTrunc
      split
      · exact Int.floor_le_iff.mpr (by push_cast; linarith)
      · exact Int.ceil_le.mpr (by push_cast; linarith)
    unfold realToInt
    omega

/-- The length of a slice. -/
theorem slice_length {s : AudioSignal F} {W o k : ℕ} (h4 : 4 ≤ W) (hW : W ≤ 2 ^ 40) (h0 : 0 < s.sampleRate) (hsr : s.sampleRate < 4294967296)
    (hok : (o + k) * W ≤ 2 ^ 42) {fd : F}
    (hfd : fd = Flt.ofNat W * 0.25 / Flt.ofNat s.sampleRate) {out : AudioSignal F} (hlen : s.data.length ≤ 2 ^ 36)
    (h : sliceSignal s (Flt.ofNat o * fd) (Flt.ofNat o * fd + fd * Flt.ofNat k) = .ok out) :
    out.data.length ≤ 2 ^ 36 + 2 ^ 42 := by
  have ho : o ≤ 2 ^ 42 := by nlinarith
  have hk : k ≤ 2 ^ 42 := by nlinarith
  obtain ⟨r1, r2, r3, r4, r5⟩ := frame_times (F := F) hW h0 hsr hok ho hk hfd
  have hbig : (((o + k) * W : ℕ) : ℝ) / 4 ≤ 2 ^ 40 := by
    have : (((o + k) * W : ℕ) : ℝ) ≤ 2 ^ 42 := by exact_mod_cast hok
    norm_num at this ⊢
    linarith
  unfold sliceSignal at h
  dsimp only at h
  obtain ⟨d, hd, h⟩ := bind_ok h
  have hdl : d.length ≤ 2 ^ 36 := by
    obtain ⟨_, _, rfl⟩ := sliceM_ok hd
    rw [List.length_take, List.length_drop]
    omega
  have hlt : Flt.lt (Flt.ofNat o * fd) (0.0 : F) = false := by
    obtain ⟨x0, y, hy, he⟩ := r2
    rw [Is.lt hy (val_0 (F := F)), decide_eq_false_iff_not, not_lt]
    have := abs_le.mp he
    have : 1 / 2 ^ 47 * (((o * W : ℕ) : ℝ) / (4 * s.sampleRate : ℕ)) ≤ ((o * W : ℕ) : ℝ) / (4 * s.sampleRate : ℕ) := by
      have : (1 : ℝ) / 2 ^ 47 ≤ 1 := by norm_num
      nlinarith
    linarith
  rw [hlt] at h
  simp only [Bool.false_eq_true, if_false] at h
  have hex : Flt.toUsize ((Flt.ofNat o * fd + fd * Flt.ofNat k) * Flt.ofNat s.sampleRate - Flt.ofNat s.data.length : F) ≤ 2 ^ 42 := by
    obtain ⟨x0, y, hy, he⟩ := r5
    refine toUsize_bound ?_
    rw [Is.sub hy (val_nat (hlen.trans (by norm_num)))]
    have hv : val (Flt.ofNat (2 ^ 42) : F) = .fin ((2 ^ 42 : ℕ) : ℝ) := val_nat (by norm_num)
    refine rnd_le (F := F) _ _ _ hv ?_
    have := (abs_le.mp he).2
    have h5 : (1 : ℝ) / 2 ^ 47 * ((((o + k) * W : ℕ) : ℝ) / 4) ≤ (((o + k) * W : ℕ) : ℝ) / 4 := by
      have : (1 : ℝ) / 2 ^ 47 ≤ 1 := by norm_num
      nlinarith
    have h6 : (0 : ℝ) ≤ ((s.data.length : ℕ) : ℝ) := Nat.cast_nonneg _
    push_cast
    norm_num at hbig ⊢
    push_cast at *
    linarith
  cases h
  dsimp only
  split
  · rw [List.length_append, List.length_replicate]
    omega
  · omega

theorem zero_window {m : Mat F} (h : ZeroMat m) (o n : Nat) : ZeroMat (m.window o n) := by
  intro r hr a ha
  obtain ⟨r', hr', rfl⟩ := List.mem_map.mp hr
  obtain ⟨c, _, rfl⟩ := List.mem_map.mp ha
  rw [List.getD_eq_getElem?_getD]
  cases hc : r'[o + c]? with
  | none => exact val_0
  | some x => exact h r' hr' x (List.mem_of_getElem? hc)

theorem zero_patch {m : Mat F} (h : ZeroMat m) {n : Nat} {ix : List Nat} {ps : List (Mat F)} (hc : createPatches n m ix = .ok ps) :
    ∀ q ∈ ps, ZeroMat q := by
  intro q hq
  obtain ⟨i, _, hi⟩ := mapE_ok_mem hc hq
  unfold Mat.sliceCols at hi
  split at hi
  · cases hi
    intro r hr a ha
    obtain ⟨r', hr', rfl⟩ := List.mem_map.mp hr
    exact h r' hr' a (List.mem_of_mem_drop (List.mem_of_mem_take ha))
  · cases hi

/-- Summing lists of ones. -/
theorem foldBands_ones {sel : PatchSim F → List F} : ∀ {ps : List (PatchSim F)} {acc r : List F} {c : ℕ},
    foldE (fun acc q => addBands acc (sel q)) acc ps = .ok r → (∀ a ∈ acc, val a = .fin (c : ℝ)) → (∀ q ∈ ps, AllOne (sel q)) →
    c + ps.length ≤ 2 ^ 53 → ∀ a ∈ r, val a = .fin ((c + ps.length : ℕ) : ℝ)
  | [], acc, r, c, h, ha, _, _ => by cases h; exact ha
  | q :: ps, acc, r, c, h, ha, hq, hc => by
    obtain ⟨acc', h1, h⟩ := bind_ok h
    rw [List.length_cons] at hc ⊢
    rw [show c + (ps.length + 1) = c + 1 + ps.length by omega] at hc ⊢
    refine foldBands_ones h (fun a ha' => ?_) (fun q' hq' => hq q' (by simp [hq'])) hc
    obtain ⟨l1, l2⟩ := addBands_ok h1
    obtain ⟨b, hb, rfl⟩ := List.getElem_of_mem ha'
    obtain ⟨y, y1, y2⟩ := l2 b (by omega)
    rw [List.getElem?_eq_getElem hb] at y2
    rw [Option.some.inj y2, Is.add (ha _ (List.getElem_mem _)) (hq q (by simp) y (List.mem_of_getElem? y1)),
      show (c : ℝ) + 1 = ((c + 1 : ℕ) : ℝ) by push_cast; ring, rnd_nat F (by omega)]

theorem perPatchMean_ones {sel : PatchSim F → List F} {ps : List (PatchSim F)} {v : List F} (h : perPatchMean sel ps = .ok v)
    (hq : ∀ q ∈ ps, AllOne (sel q)) (hl : ps.length ≤ 2 ^ 53) : AllOne v := by
  unfold perPatchMean at h
  obtain ⟨q, h1, h⟩ := bind_ok h
  obtain ⟨t, h2, h⟩ := bind_ok h
  cases h
  have hpos : 0 < ps.length := idx_ok_lt h1
  have := foldBands_ones (c := 0) h2 (fun a ha => by rw [List.eq_of_mem_replicate ha, Nat.cast_zero]; exact val_0) hq (by omega)
  intro a ha
  obtain ⟨x, hx, rfl⟩ := List.mem_map.mp ha
  have hx := this x hx
  rw [Nat.zero_add] at hx
  have h0 : ((ps.length : ℕ) : ℝ) ≠ 0 := by exact_mod_cast hpos.ne'
  rw [Is.div hx (val_nat hl) h0, div_self h0, rnd_one]

theorem mem_getElem? {α : Type} {l : List α} {a : α} (h : a ∈ l) : ∃ k : Nat, l[k]? = some a := by
  obtain ⟨k, hk, rfl⟩ := List.getElem_of_mem h
  exact ⟨k, List.getElem?_eq_getElem hk⟩

theorem small_sizes {l : Nat} (h : l ≤ 2 ^ 36) : l + 21 < 9223372036854775808 ∧ l + 1 ≤ 2 ^ 53 ∧ l ≤ 2 ^ 40 ∧ 8 * l ≤ 2 ^ 42 := by
  norm_num at h ⊢
  omega

theorem reach_fits {i n l s : Nat} (h1 : i + 20 ≤ n) (h2 : n ≤ 1 + l) (h3 : l + 20 * s < 2147483647) :
    (i : Int) + (s : Int) * 20 ≤ 2147483647 := by
  omega

/-- The end of the last column of a signal. -/
theorem columns_bound {len W i n : Nat} (h4 : 0 < W / 4) (hW : W ≤ len) (hi : i + n ≤ numColumns len W (W / 4)) :
    (i + n) * W ≤ 8 * len := by
  unfold numColumns at hi
  have h1 : (i + n) * W ≤ (1 + (len - W) / (W / 4)) * W := Nat.mul_le_mul_right _ hi
  have h2 : (len - W) / (W / 4) * (W / 4) ≤ len - W := Nat.div_mul_le_self _ _
  have h3 : (len - W) / (W / 4) * W ≤ (len - W) / (W / 4) * (8 * (W / 4)) := Nat.mul_le_mul_left _ (by omega)
  rw [Nat.add_mul 1, Nat.one_mul] at h1
  generalize (i + n) * W = C at *
  rw [Nat.mul_left_comm] at h3
  generalize (len - W) / (W / 4) * (W / 4) = A at *
  generalize (len - W) / (W / 4) * W = B at *
  omega

variable [RustFft F]

/-- The pieces compared by the fine alignment of silent signals are silent. -/
theorem silent_truncated {p : Profile} {ref deg r d : AudioSignal F} {t : F} (hsr : ref.sampleRate = deg.sampleRate)
    (hr : Silent ref.data) (hd : Silent deg.data) (h : alignAndTruncate p ref deg = .ok (some (r, d, t))) :
    Silent r.data ∧ Silent d.data ∧ r.data.length ≤ ref.data.length ∧ d.data.length ≤ ref.data.length := by
  obtain ⟨h1, _, _, al, off, h2, h3, h4, h5, _⟩ := C37_equal_length hsr h
  have hal := silent_aligned hd h2
  refine ⟨?_, ?_, by omega, by omega⟩
  · rw [h3]; exact fun a ha => hr a (List.mem_of_mem_drop (List.mem_of_mem_take ha))
  · rw [h4]; exact fun a ha => hal a (List.mem_of_mem_drop (List.mem_of_mem_take ha))

/-- One patch of the fine alignment, for silent signals. -/
theorem silent_fine {p : Profile} {nb : Nat} {ref deg : AudioSignal F} {w : AnalysisWindow F} {fb fb' : FilterBank F}
    {r r' : PatchSim F} (h : finelyAlignPatch p nb ref deg w fb r = .ok (fb', r')) (hsr : ref.sampleRate = deg.sampleRate)
    (hr : Silent ref.data) (hd : Silent deg.data) (hnb : nb ≤ 2 ^ 53) (hr1 : AllOne r.freqBandMeans)
    (hr2 : r.freqBandMeans.length = nb) (hl : ∀ ra, sliceSignal ref r.refStart r.refEnd = .ok ra → ra.data.length ≤ 2 ^ 36 + 2 ^ 42) :
    AllOne r'.freqBandMeans ∧ r'.freqBandMeans.length = nb := by
  unfold finelyAlignPatch at h
  split at h
  · cases h; exact ⟨hr1, hr2⟩
  obtain ⟨ra, h1, h⟩ := bind_ok h
  obtain ⟨da, h2, h⟩ := bind_ok h
  obtain ⟨o, h3, h⟩ := bind_ok h
  cases o with
  | none => cases h
  | some x =>
    obtain ⟨raa, daa, lag⟩ := x
    dsimp only at h
    have hsr' : ra.sampleRate = da.sampleRate := by
      have e1 : ra.sampleRate = ref.sampleRate := by
        unfold sliceSignal at h1; obtain ⟨_, _, h1⟩ := bind_ok h1; cases h1; rfl
      have e2 : da.sampleRate = deg.sampleRate := by
        unfold sliceSignal at h2; obtain ⟨_, _, h2⟩ := bind_ok h2; cases h2; rfl
      rw [e1, e2, hsr]
    obtain ⟨s1, s2, s3, s4⟩ := silent_truncated hsr' (silent_slice hr h1) (silent_slice hd h2) h3
    have hl := hl ra h1
    obtain ⟨⟨f1, rs⟩, b1, h⟩ := bind_ok h
    obtain ⟨⟨f2, ds⟩, b2, h⟩ := bind_ok h
    obtain ⟨⟨rm, dm⟩, b3, h⟩ := bind_ok h
    obtain ⟨n, b4, h⟩ := bind_ok h
    obtain ⟨c1, c2, c3, c4, _⟩ := buildSpectrogram_ok b1
    obtain ⟨d1, _, _, d4, _⟩ := buildSpectrogram_ok b2
    dsimp only at b3
    rw [c4, d4] at b3
    have h53 : (2 : ℕ) ^ 36 + 2 ^ 42 < 2 ^ 53 := by norm_num
    obtain ⟨z1, z2⟩ := prepare_mute (spectroMat_wf _ _ _ _) (spectroMat_wf _ _ _ _)
      (spectroMat_mute s1 c1 c2 c3 (by omega)) (spectroMat_mute s2 d1 c2 c3 (by omega)) b3
    obtain ⟨p1, p2, p3, _, p5, _⟩ := prepare_shape b3 (spectroMat_wf _ _ _ _) (spectroMat_wf _ _ _ _)
    rw [spectroMat_nrows] at p3
    have hcols : rm.ncols ≤ 2 ^ 53 := by
      rw [p5]
      show numColumns _ _ _ ≤ _
      refine numColumns_le.trans ?_
      omega
    obtain ⟨_, m2, m3⟩ := measure_zero p1 p2 z1 z2 (by rw [p3]; exact hnb) hcols b4
    split at h
    · cases h; exact ⟨hr1, hr2⟩
    · cases h
      exact ⟨m2, by rw [m3, p3]⟩

variable [NanFft F]

/-- C47: in fullband mode, with a silent reference and a degraded signal whose samples are all numbers, a returned result has
similarity 1 in every band and a mean similarity of exactly 1.  The search radius is at least 1; the sizes are far above those of
sound files. -/
theorem C47_silent_reference {p : Profile} {m m' : Manager F} {ref deg : AudioSignal F} {res : SimilarityResult F}
    (hm : m.patchCreator = .image 20) (hr1 : 1 ≤ m.searchWindow)
    (hr2 : 14 + 30 * m.searchWindow ≤ 2147483647) (hsr : ref.sampleRate = deg.sampleRate) (h0 : 0 < ref.sampleRate)
    (hsr32 : ref.sampleRate < 4294967296) (hlen : ref.data.length + deg.data.length ≤ 2 ^ 36)
    (hlen2 : ref.data.length + 20 * m.searchWindow < 2147483647) (hnb : m.numBands ≤ 2 ^ 53)
    (hdrift : SmallDrift ref.sampleRate (deg.data.length + ref.data.length / 2))
    (hsilent : Silent ref.data) (hfin : Finite deg.data) (h : m.computeResults p ref deg = .ok (m', res)) :
    val res.vnsim = .fin 1 ∧ res.fvnsim.length = m.numBands ∧ ∀ a ∈ res.fvnsim, val a = .fin 1 := by
  obtain ⟨al, lag, hal, ⟨st⟩⟩ := computeResults_stages h
  have hal_len := globallyAlign_length hal
  have hal_sr := (C39_only_shifts hal).1
  have hal36 : al.data.length ≤ 2 ^ 36 := le_trans (by omega) hlen
  have href36 : ref.data.length ≤ 2 ^ 36 := le_trans (by omega) hlen
  have h53 : (2 : ℕ) ^ 36 < 2 ^ 53 := by norm_num
  have hne : ref.data ≠ [] := by
    intro hc
    have h1 := st.hsr
    have h2 := st.hsize
    rw [hc] at h1
    simp only [List.length_nil, Nat.le_zero] at h1
    omega
  have hscaled : Silent (scaleToMatchSpl ref al).data := by
    refine (scaled_to_silence hsilent hne (by omega) (finite_aligned hfin hal)).resolve_right fun hn => ?_
    exact nan_no_result hal st (.inr hm) hr1 hr2 hsr h0 hsr32 hlen hdrift hn
  clear hlen hdrift
  have hslen : (scaleToMatchSpl ref al).data.length = al.data.length := by simp [scaleToMatchSpl]
  have hW := ieee_window (F := F) hsr32
  have hhop : (AnalysisWindow.mk' ref.sampleRate (0.25 : F) 0.08).hop = windowSamples ref.sampleRate / 4 := by
    rw [← hW]
    refine ieee_hop ?_
    show (AnalysisWindow.mk' ref.sampleRate (0.25 : F) 0.08).size ≤ _
    exact st.hsr.trans (href36.trans (by norm_num))
  rw [hm] at st
  obtain ⟨s1, s2, s3, s4, s5, s6⟩ := st.shapes
  -- both spectrograms are zero
  obtain ⟨z1, z2⟩ := prepare_mute (spectroMat_wf _ _ _ _) (spectroMat_wf _ _ _ _)
    (spectroMat_mute hsilent st.hsr st.hhop st.hsize (by omega))
    (spectroMat_mute hscaled (by rw [hslen]; exact st.hsd) st.hhop st.hsize (by omega)) st.prep
  -- the patches
  have hix : ∀ k i, st.ix[k]? = some i → i = 9 + 20 * k := by
    have hixs := st.ixs
    by_cases h30 : st.refM.ncols < 30
    · rw [C25_too_small p h30] at hixs; cases hixs
    · obtain ⟨n, _, hk2, _⟩ := C25_tiling p (m := st.refM) (by omega) ref (AnalysisWindow.mk' ref.sampleRate 0.25 0.08)
      rw [hk2] at hixs
      rw [← Except.ok.inj hixs]
      intro k i hk
      obtain ⟨hk1, hk2⟩ := List.getElem?_eq_some_iff.mp hk
      rw [List.getElem_map, List.getElem_range] at hk2
      exact hk2.symm
  have hcols : st.refM.ncols ≤ 1 + ref.data.length := by rw [s5]; exact numColumns_le
  have hdcols : st.degM.ncols ≤ 1 + al.data.length := by rw [s6]; exact numColumns_le
  have hixin : ∀ k i, st.ix[k]? = some i → i + 20 ≤ st.refM.ncols := fun k i hk => (createPatches_get st.created hk).2
  obtain ⟨c1, c2⟩ := createPatches_ok st.created s1
  have hpz := zero_patch z1 st.created
  have hsim : ∀ q ∈ st.patches, ∀ o n, measurePatchSimilarity p q (st.degM.window o 20) = .ok n →
      val n.similarity = .fin 1 ∧ AllOne n.freqBandMeans ∧ n.freqBandMeans.length = m.numBands := by
    intro q hq o n hn
    obtain ⟨q1, q2, q3⟩ := c2 q hq
    have := measure_zero q1 (window_wf _ _ _).1 (hpz q hq) (zero_window z2 o 20) (by rw [q2, s3]; exact hnb)
      (by rw [q3]; exact show (20 : ℕ) ≤ 2 ^ 53 by norm_num) hn
    rw [q2, s3] at this
    exact this
  have hixlen : st.ix.length ≤ st.refM.ncols := by
    rcases Nat.eq_zero_or_pos st.ix.length with hz | hz
    · omega
    · have hk : st.ix[st.ix.length - 1]? = some (st.ix[st.ix.length - 1]'(by omega)) := List.getElem?_eq_getElem _
      have e1 := hixin _ _ hk
      rw [hix _ _ hk] at e1
      omega
  have hrad : wrapI32 (m.searchWindow : Int) = m.searchWindow := wrapI32_of_mem (by omega) (by omega)
  have hfound := st.found
  rw [hrad] at hfound
  have hdeg63 : st.degM.ncols + 20 < 9223372036854775808 := lt_of_le_of_lt (by omega) (small_sizes hal36).1
  have hix53 : st.ix.length ≤ 2 ^ 53 := le_trans (by omega) (small_sizes href36).2.1
  have hcoarse := ones_find hfound c1 (fun q hq => ⟨(c2 q hq).1, (c2 q hq).2.2⟩) s2
    hdeg63 hix53 (by exact_mod_cast hr1) (fun i hi => by
      obtain ⟨k, hk⟩ := mem_getElem? hi
      exact reach_fits (hixin k i hk) hcols hlen2) hix (fun q hq o n hn => (hsim q hq o n hn).1)
  -- fine alignment
  obtain ⟨f1, f2⟩ := finelyAlign_each st.fine
  have hsr' : (scaleToMatchSpl ref al).sampleRate = ref.sampleRate := by
    show al.sampleRate = _
    rw [hal_sr, hsr]
  have hhop0 := st.hhop
  have hsrlen := st.hsr
  rw [hW] at hsrlen
  rw [hhop] at hhop0
  have hfd : (Flt.ofNat (AnalysisWindow.mk' ref.sampleRate (0.25 : F) 0.08).size *
      (AnalysisWindow.mk' ref.sampleRate (0.25 : F) 0.08).overlap / Flt.ofNat ref.sampleRate : F) =
      Flt.ofNat (windowSamples ref.sampleRate) * 0.25 / Flt.ofNat ref.sampleRate := by
    rw [hW]
    rfl
  have hfine : ∀ q ∈ res.patchSims, AllOne q.freqBandMeans ∧ q.freqBandMeans.length = m.numBands := by
    intro q hq
    obtain ⟨k, hk⟩ := mem_getElem? hq
    have hkl : k < st.coarse.length := by rw [← f1]; exact (List.getElem?_eq_some_iff.mp hk).1
    obtain ⟨fb, fb', q', g1, g2, _⟩ := f2 k _ (List.getElem?_eq_getElem hkl)
    rw [hk] at g2
    cases g2
    obtain ⟨pm, i, o, k1, k2, _, k4, k5, k6⟩ := hcoarse k _ (List.getElem?_eq_getElem hkl)
    obtain ⟨n, n1, _, n3, _⟩ := k4.scores
    have hpm := List.mem_of_getElem? k1
    rw [(c2 pm hpm).2.2] at n1
    obtain ⟨_, o2, o3⟩ := hsim pm hpm o n n1
    rw [← n3] at o2 o3
    refine silent_fine g1 hsr'.symm hsilent hscaled hnb o2 o3 fun ra hra => ?_
    rw [k5, k6] at hra
    have hin := hixin k i k2
    rw [s5, hW, hhop] at hin
    have hb := columns_bound hhop0 hsrlen hin
    exact slice_length (by omega) (hsrlen.trans (small_sizes href36).2.2.1) h0 hsr32 (hb.trans (small_sizes href36).2.2.2) hfd
      href36 hra
  have hplen : res.patchSims.length ≤ 2 ^ 53 := by
    rw [f1]
    exact st.coarse_ok.2.1.trans hix53
  have hfv := perPatchMean_ones st.fvn (fun q hq => (hfine q hq).1) hplen
  obtain ⟨q, hq, hql⟩ := perPatchMean_ok st.fvn
  rw [(hfine q (List.mem_of_getElem? hq)).2] at hql
  refine ⟨?_, hql, hfv⟩
  have hvn := st.vn
  unfold meanOpt at hvn
  split at hvn
  · cases hvn
  · rename_i hnil
    rw [← Option.some.inj hvn]
    exact one_mean hfv rfl (List.length_pos_iff.mpr hnil) (by rw [hql]; exact hnb)

omit [RustFft F] [NanFft F] in
/-- A number no larger than a floating point number rounds to a number. -/
theorem rnd_within {a : F} {x y : ℝ} (h : Is a x) (hy : |y| ≤ |x|) : ∃ z, rnd F y = .fin z := by
  have h1 : Is (Flt.abs a) |x| := Is.abs h
  have h2 : Is (-Flt.abs a) (-|x|) := Is.neg h1
  have hb := abs_le.mp hy
  rcases rnd_le (F := F) _ _ y h1 hb.2 with e1 | ⟨z, e1, _⟩
  · rcases rnd_ge (F := F) _ _ y h2 hb.1 with e2 | ⟨z, e2, _⟩
    · rw [e1] at e2; cases e2
    · exact ⟨z, e2⟩
  · exact ⟨z, e1⟩

omit [RustFft F] [NanFft F] in
/-- The samples of a loaded file are numbers. -/
theorem load_finite {c sr bits : Nat} {s : List Int} {sig : AudioSignal F} (h : loadAsMono (.wav c sr bits (some s)) = .ok sig)
    (hc : c < 65536) : Finite sig.data := by
  obtain ⟨h0, _, _, hd⟩ := load_facts h
  rw [hd]
  intro b hb
  obtain ⟨t, ht, rfl⟩ := List.mem_map.mp hb
  obtain ⟨fr, hf, rfl⟩ := List.mem_map.mp ht
  obtain ⟨i, hi, he⟩ := List.getElem_of_mem hf
  rw [chunksOf_length] at hi
  have hg := chunksOf_get c (s.length / c) (normalizeInt16 (F := F) (s.map wrapI16)) i hi
  rw [List.getElem?_eq_getElem (by rw [chunksOf_length]; exact hi), he] at hg
  have hg := Option.some.inj hg
  have hz : ∀ a ∈ fr, ∃ x, val a = .fin x ∧ |x| ≤ 2 := by
    intro a ha
    rw [hg] at ha
    obtain ⟨x, hx, rfl⟩ := List.mem_map.mp (List.mem_of_mem_drop (List.mem_of_mem_take ha))
    obtain ⟨y, hy, rfl⟩ := List.mem_map.mp hx
    have hw : -32768 ≤ wrapI16 y ∧ wrapI16 y ≤ 32767 := by
      unfold wrapI16
      have h1 := Int.le_bmod (x := y) (m := 65536) (by norm_num)
      have h2 := Int.bmod_lt (x := y) (m := 65536) (by norm_num)
      omega
    generalize wrapI16 y = k at hw
    have h1 : val (Flt.ofInt k : F) = .fin k := by
      rw [val_ofInt, rnd_int F (by rw [abs_le]; constructor <;> omega)]
    have h2 : val (32767.0 : F) = .fin 32767 := by
      have := val_litnat (F := F) (m := 327670) (e := 1) (k := 32767) (by norm_num) (by norm_num)
      rw [this]
      norm_num
    have hk1 : (-32768 : ℝ) ≤ k := by exact_mod_cast hw.1
    have hk2 : (k : ℝ) ≤ 32767 := by exact_mod_cast hw.2
    have hb : |(k : ℝ) / 32767| ≤ 3 / 2 := by
      rw [abs_le]; constructor
      · rw [le_div_iff₀ (by norm_num)]; linarith
      · rw [div_le_iff₀ (by norm_num)]; linarith
    obtain ⟨z, hz, e⟩ := rnd_acc (F := F) ((k : ℝ) / 32767) (hb.trans (by
      have : (2 : ℝ) ^ 1 ≤ 2 ^ 1000 := pow_le_pow_right₀ (by norm_num) (by norm_num)
      refine le_trans ?_ this
      norm_num))
    refine ⟨z, by rw [Is.div h1 h2 (by norm_num), hz], ?_⟩
    have h3 : (1 : ℝ) / 2 ^ 1000 ≤ 1 / 2 ^ 10 :=
      one_div_le_one_div_of_le (by positivity) (pow_le_pow_right₀ (by norm_num) (by norm_num))
    have h4 : |(k : ℝ) / 32767| / 2 ^ 52 ≤ 3 / 2 / 2 ^ 52 := by gcongr
    have h5 := abs_add_le (z - (k : ℝ) / 32767) ((k : ℝ) / 32767)
    rw [sub_add_cancel] at h5
    generalize (1 : ℝ) / 2 ^ 1000 = P at *
    norm_num at h3 h4
    linarith
  have hfl : fr.length ≤ 2 ^ 50 := by
    rw [hg, List.length_take]
    exact le_trans (by omega) (show (65536 : ℕ) ≤ 2 ^ 50 by norm_num)
  obtain ⟨y, hy⟩ := sum_small fr hz hfl
  have hc1 : (1 : ℝ) ≤ (c : ℝ) := by exact_mod_cast h0
  have hc0 : (c : ℝ) ≠ 0 := by positivity
  rw [Is.div hy (val_nat (le_trans hc.le (by norm_num))) hc0]
  refine rnd_within hy ?_
  rw [abs_div, abs_of_pos (by linarith : (0 : ℝ) < c)]
  exact div_le_self (abs_nonneg _) hc1

/-- C47 for `run`: a reference file whose samples are all 0 is perfectly similar to every degraded file. -/
theorem C47_run {p : Profile} {world : World F} {m m' : Manager F} {r d path : String} {cr cd sr srd bits bits' : Nat} {s t : List Int}
    (hr : world.wav r = .wav cr sr bits (some s)) (hd : world.wav d = .wav cd srd bits' (some t)) (hzero : ∀ x ∈ s, x = 0)
    {nb radius : Nat} (hm : Manager.new world nb (.fullband path) radius = .ok m) (hr1 : 1 ≤ radius)
    (hr2 : 14 + 30 * radius ≤ 2147483647) (h0 : 0 < sr) (hsr : sr < 4294967296) (hcr : cr < 65536) (hcd : cd < 65536)
    (hnb : nb ≤ 2 ^ 53) (hlen : s.length / cr + t.length / cd ≤ 2 ^ 36) (hlen2 : s.length / cr + 20 * radius < 2147483647)
    (hdrift : SmallDrift sr (t.length / cd + s.length / cr / 2)) {res : SimilarityResult F} (h : m.run p world r d = .ok (m', res)) :
    val res.vnsim = .fin 1 ∧ ∀ a ∈ res.fvnsim, val a = .fin 1 := by
  obtain ⟨ref, deg, h1, h2, h3, h4⟩ := run_ok h
  rw [hr] at h1
  rw [hd] at h2
  obtain ⟨_, a2, a3, _⟩ := load_facts h1
  obtain ⟨_, b2, b3, _⟩ := load_facts h2
  have hpc : m.patchCreator = .image 20 ∧ m.searchWindow = radius ∧ m.numBands = nb := by
    obtain ⟨v, _, hm⟩ := bind_ok hm
    cases hm
    exact ⟨rfl, rfl, rfl⟩
  obtain ⟨g1, _, g3⟩ := C47_silent_reference hpc.1 (by rw [hpc.2.1]; exact hr1) (by rw [hpc.2.1]; exact hr2) h3 (by rw [a2]; exact h0)
    (by rw [a2]; exact hsr) (by rw [a3, b3]; exact hlen) (by rw [a3, hpc.2.1]; exact hlen2) (by rw [hpc.2.2]; exact hnb)
    (by rw [a2, a3, b3]; exact hdrift) (load_silent h1 (le_trans hcr.le (by norm_num)) hzero) (load_finite h2 hcd) h4
  exact ⟨g1, g3⟩

/-- One second of silence and one second of a steady level at 48 kHz, with the default search radius. -/
example (p : Profile) (world : World B64) (hr : world.wav "ref.wav" = .wav 1 48000 16 (some (List.replicate 48000 0)))
    (hd : world.wav "deg.wav" = .wav 1 48000 16 (some (List.replicate 48000 1000))) {m m' : Manager B64}
    (hm : Manager.new world 32 (.fullband "model.txt") 60 = .ok m) {res : SimilarityResult B64}
    (h : m.run p world "ref.wav" "deg.wav" = .ok (m', res)) : val res.vnsim = .fin 1 := by
  refine (C47_run hr hd (fun y hy => List.eq_of_mem_replicate hy) hm (by norm_num) (by norm_num) (by norm_num) (by norm_num)
    (by norm_num) (by norm_num) (by norm_num) (by simp only [List.length_replicate]; norm_num)
    (by simp only [List.length_replicate]; norm_num) ?_ h).1
  unfold SmallDrift windowSamples
  norm_num

end Visqol
