import Verif.Lemmas.Patches
import Verif.Lemmas.Shape
import Verif.Lemmas.Errors
import Verif.Spec.Vad
import Verif.Lemmas.Extremum
import Verif.Lemmas.RealCast
import Verif.Props.Align
import Verif.Num.Real
import Verif.Num.Dft

/-! # Reference patches (C25 to C31, C54, C57, C60) -/

set_option linter.unusedSectionVars false

namespace Visqol
variable {F : Type} [Flt F]

/-! ## C25: fullband -/

/-- C25: fewer than 30 columns. -/
theorem C25_too_small (p : Profile) {n : Nat} (h : n < 30) (ref : AudioSignal F) (w : AnalysisWindow F) :
    (PatchCreator.image 20).indices p n ref w = .error (.err (.referenceSpectrogramTooSmall n 10)) := by
  show imagePatchIndices 20 n = _
  unfold imagePatchIndices
  dsimp only
  rw [if_pos (by omega)]

/-- C25: with at least 30 columns the patch starts are 9, 29, 49, ... below `max (n - 21) 10`; the patches can be cut out,
each has 20 columns and they follow each other without gap or overlap. -/
theorem C25_tiling (p : Profile) {m : Mat F} (h : 30 ≤ m.ncols) (ref : AudioSignal F) (w : AnalysisWindow F) :
    ∃ k, 1 ≤ k ∧ (PatchCreator.image 20).indices p m.ncols ref w = .ok ((List.range k).map fun i => 9 + 20 * i) ∧
      (∀ i, i < k ↔ 9 + 20 * i < max (m.ncols - 21) 10) ∧
      ∃ ps, createPatches 20 m ((List.range k).map fun i => 9 + 20 * i) = .ok ps ∧ ps.length = k ∧
        ∀ i < k, ∃ q, ps[i]? = some q ∧ q.ncols = 20 ∧ q.rows = m.rows.map fun r => (r.drop (9 + 20 * i)).take 20 := by
  obtain ⟨k, hk, hk2⟩ : ∃ k, k = ((if 10 < m.ncols - 20 then m.ncols - 20 else 11) - 10 + 19) / 20 ∧
      (∀ i, i < k ↔ 9 + 20 * i < max (m.ncols - 21) 10) := by
    refine ⟨_, rfl, fun i => ?_⟩
    split <;> omega
  have h1 : 1 ≤ k := (hk2 0).mpr (by omega)
  have hcut : createPatches 20 m ((List.range k).map fun i => 9 + 20 * i) =
      .ok ((List.range k).map fun i => ⟨20, m.rows.map fun r => (r.drop (9 + 20 * i)).take 20⟩) := by
    unfold createPatches
    rw [mapE_of_forall (g := fun i => (⟨20, m.rows.map fun r => (r.drop i).take 20⟩ : Mat F)), List.map_map]
    · rfl
    intro a ha
    obtain ⟨i, hi, rfl⟩ := List.mem_map.mp ha
    have hi := (hk2 i).mp (List.mem_range.mp hi)
    unfold Mat.sliceCols
    rw [if_pos (by omega)]
    have : 9 + 20 * i + 20 - (9 + 20 * i) = 20 := by omega
    rw [this]
  refine ⟨k, h1, ?_, hk2, _, hcut, by simp, fun i hi => ?_⟩
  · show imagePatchIndices 20 m.ncols = _
    unfold imagePatchIndices
    dsimp only
    rw [if_neg (by omega)]
    unfold rangeStep
    rw [show (20 / 2 : Nat) = 10 from rfl, show (20 - 1 : Nat) = 19 from rfl, ← hk, List.map_map]
    congr 1
    apply List.map_congr_left
    intro i _
    simp only [Function.comp]; omega
  · exact ⟨⟨20, m.rows.map fun r => (r.drop (9 + 20 * i)).take 20⟩, by
      rw [List.getElem?_map, List.getElem?_range hi]; rfl, rfl, rfl⟩

example : (30 : Nat) ≤ (⟨30, []⟩ : Mat Float).ncols := by decide

/-! ## C29: smoothing of the frame flags -/

/-- C29: `flags[i]` says whether frame `i` reaches the threshold.  The output has `max 2 n` entries; entry `i` is inactive
exactly when `i ≥ 2` and frames `i`, `i-1` and `i-2` are all below the threshold. -/
theorem C29_smoothing (flags : List Bool) :
    (vadResults flags).length = max 2 flags.length ∧
    (∀ i < 2, (vadResults flags)[i]? = some true) ∧
    ∀ i < flags.length, ((vadResults flags)[i]? = some false ↔
      2 ≤ i ∧ flags[i]? = some false ∧ flags[i - 1]? = some false ∧ flags[i - 2]? = some false) := by
  refine ⟨vadResults_length flags, fun i hi => ?_, fun i hi => ?_⟩
  · unfold vadResults
    rw [List.getElem?_append_left (by simpa using hi), List.getElem?_replicate, if_pos hi]
  · unfold vadResults
    by_cases h2 : i < 2
    · rw [List.getElem?_append_left (by simpa using h2), List.getElem?_replicate, if_pos h2]
      simp; omega
    · rw [List.getElem?_append_right (by simp; omega), List.getElem?_map, List.length_replicate,
        List.getElem?_range (by omega)]
      have e : i - 2 + 2 = i := by omega
      have h1 : i - 1 < flags.length := by omega
      have h2' : i - 2 < flags.length := by omega
      simp only [Option.map_some, previousSilent, e, List.getD_eq_getElem?_getD, List.getElem?_eq_getElem hi,
        List.getElem?_eq_getElem h1, List.getElem?_eq_getElem h2', Option.getD_some, Option.some.injEq]
      cases flags[i] <;> cases flags[i - 1] <;> cases flags[i - 2] <;> simp <;> omega

/-! ## C26, C27, C30: wideband -/

theorem rms_active (norm : List F) (hop f : Nat) (h : 14 + f * hop + hop ≤ norm.length) :
    chunkActive (F := F) (judgedFrame norm hop f) = true ↔ Loud norm hop f := by
  unfold chunkActive Loud rmsOf
  have : (judgedFrame norm hop f).length = hop := by
    simp only [judgedFrame, List.length_map, List.length_take, List.length_drop]; omega
  rw [this]
  simp

/-- The wideband patch starts for `pc` complete groups of 30 frames. -/
theorem vadPatchIndices_eq (p : Profile) {nc : Nat} {ref : AudioSignal F} {w : AnalysisWindow F} (h : 44 ≤ nc) (hh : 0 < w.hop)
    {norm : List F} (hn : normalizeSignal ref.data = .ok norm) (hl : 14 + (nc - 14) / 30 * (30 * w.hop) ≤ norm.length) :
    vadPatchIndices p 30 nc ref w = .ok (selectPatches 30 14 (chunksIter 30 ((nc - 14) / 30 * 30)
      (vadResults ((List.range ((nc - 14) / 30 * 30)).map fun f => chunkActive (F := F) (judgedFrame norm w.hop f))))) := by
  have hpc : 1 ≤ (nc - 14) / 30 := by omega
  unfold vadPatchIndices
  rw [hn]
  simp only [ok_bind]
  rw [usub_of_le (by decide)]
  simp only [ok_bind]
  rw [usub_of_le (by omega)]
  simp only [ok_bind]
  rw [if_neg (by decide)]
  have e14 : (30 / 2 - 1 : Nat) = 14 := rfl
  rw [e14]
  generalize hpcd : (nc - 14) / 30 = pc at *
  unfold voiceActivity
  rw [sliceM_of_le (by omega) (by omega)]
  simp only [ok_bind]
  have hfull : (fullFrames w.hop ((List.take (14 + pc * (30 * w.hop) - 14) (List.drop 14 norm)).map toPcm)).map
      (chunkActive (F := F)) = (List.range (pc * 30)).map fun f => chunkActive (F := F) (judgedFrame norm w.hop f) := by
    unfold fullFrames
    rw [if_neg (by omega)]
    have hlen : ((List.take (14 + pc * (30 * w.hop) - 14) (List.drop 14 norm)).map toPcm).length = pc * 30 * w.hop := by
      simp only [List.length_map, List.length_take, List.length_drop, Nat.mul_assoc]; omega
    rw [hlen, Nat.mul_div_cancel _ hh]
    apply List.ext_getElem?
    intro f
    rw [List.getElem?_map, List.getElem?_map]
    by_cases hf : f < pc * 30
    · rw [chunksOf_get _ _ _ _ hf, List.getElem?_range hf]
      simp only [Option.map_some]
      congr 1
      unfold judgedFrame
      rw [← List.map_drop, ← List.map_take, List.drop_take, List.take_take, List.drop_drop]
      congr 3
      have : (f + 1) * w.hop ≤ pc * 30 * w.hop := Nat.mul_le_mul_right _ hf
      rw [Nat.succ_mul] at this
      rw [Nat.mul_assoc] at this
      omega
    · rw [List.getElem?_eq_none (by simpa [chunksOf_length] using hf), List.getElem?_eq_none (by simpa using hf)]
      rfl
  rw [hfull]
  have : (vadResults ((List.range (pc * 30)).map fun f => chunkActive (F := F) (judgedFrame norm w.hop f))).length = pc * 30 := by
    rw [vadResults_length]; simp; omega
  rw [this]

/-- The samples examined by the detector exist. -/
theorem vad_slice_in_signal {len size hop : Nat} (hs : size ≤ len) (hh : 0 < hop) (h0 : 0 < size)
    (hc : 44 ≤ numColumns len size hop) : 14 + (numColumns len size hop - 14) / 30 * (30 * hop) ≤ len := by
  have h1 : (numColumns len size hop - 14) / 30 * 30 ≤ numColumns len size hop - 14 := Nat.div_mul_le_self _ _
  have h2 : (len - size) / hop * hop ≤ len - size := Nat.div_mul_le_self _ _
  have h3 : (numColumns len size hop - 14) / 30 * 30 * hop ≤ (numColumns len size hop - 14) * hop := Nat.mul_le_mul_right _ h1
  have h4 : (numColumns len size hop - 14) * hop = (len - size) / hop * hop - 13 * hop := by
    rw [← Nat.sub_mul]; unfold numColumns; congr 1; omega
  rw [Nat.mul_assoc] at h3
  have h5 : 13 * hop ≤ (len - size) / hop * hop := Nat.mul_le_mul_right _ (by unfold numColumns at hc; omega)
  omega

theorem normalizeSignal_length {l norm : List F} (h : normalizeSignal l = .ok norm) : norm.length = l.length := by
  unfold normalizeSignal at h
  obtain ⟨m, _, h⟩ := bind_ok h
  cases h; simp

/-- C26: with at least 44 columns the wideband patch creator succeeds whenever the signal can be normalised (it has no NaN;
otherwise it panics).  Patch starts are among 14, 44, 74, ..., in increasing order, and every patch lies inside the
spectrogram and can be cut out of it. -/
theorem C26_wideband (p : Profile) {ref : AudioSignal F} {w : AnalysisWindow F} {m : Mat F} (hs : w.size ≤ ref.data.length)
    (hh : 0 < w.hop) (h0 : 0 < w.size) (hm : m.ncols = numColumns ref.data.length w.size w.hop) (hc : 44 ≤ m.ncols) :
    (∀ norm, normalizeSignal ref.data = .ok norm → ∃ ix, (PatchCreator.vad 30).indices p m.ncols ref w = .ok ix ∧
      ix.Sublist ((List.range ((m.ncols - 14) / 30)).map fun k => 14 + 30 * k) ∧ (∀ i ∈ ix, i + 30 ≤ m.ncols) ∧
      14 ∈ ix ∧ ∃ ps, createPatches 30 m ix = .ok ps) ∧
    (∀ e, normalizeSignal ref.data = .error e → e = .panic .expect ∧ (PatchCreator.vad 30).indices p m.ncols ref w = .error e) := by
  constructor
  · intro norm hn
    have hl := vad_slice_in_signal hs hh h0 (hm ▸ hc)
    rw [← hm, ← normalizeSignal_length hn] at hl
    have key := vadPatchIndices_eq p hc hh hn hl
    have hpc : 1 ≤ (m.ncols - 14) / 30 := by omega
    generalize hfl : (List.range ((m.ncols - 14) / 30 * 30)).map
      (fun f => chunkActive (F := F) (judgedFrame norm w.hop f)) = flags at key
    have hfll : flags.length = (m.ncols - 14) / 30 * 30 := by rw [← hfl]; simp
    have hvl : (vadResults flags).length = (m.ncols - 14) / 30 * 30 := by rw [vadResults_length]; omega
    have hsub := @selectPatches_sublist 30 14 (chunksIter 30 ((m.ncols - 14) / 30 * 30) (vadResults flags))
    rw [chunksIter_length (by decide) (le_of_eq hvl), hvl] at hsub
    have e : ((m.ncols - 14) / 30 * 30 + (30 - 1)) / 30 = (m.ncols - 14) / 30 := by omega
    rw [e] at hsub
    have hrange : ∀ i ∈ selectPatches 30 14 (chunksIter 30 ((m.ncols - 14) / 30 * 30) (vadResults flags)),
        i + 30 ≤ m.ncols := by
      intro i hi
      obtain ⟨k, hk, rfl⟩ := List.mem_map.mp (hsub.subset hi)
      have := List.mem_range.mp hk
      omega
    refine ⟨_, key, hsub, hrange, ?_, ?_⟩
    · rw [selectPatches_mem]
      refine ⟨0, _, (chunksIter_get (by decide) (le_of_eq hvl)).trans (if_pos (by omega)), by simp, ?_⟩
      simp [vadResults]
    · refine ⟨_, mapE_of_forall (g := fun i => (⟨30, m.rows.map fun r => (r.drop i).take 30⟩ : Mat F)) fun i hi => ?_⟩
      unfold Mat.sliceCols
      have := hrange i hi
      rw [if_pos (by omega)]
      have e : i + 30 - i = 30 := by omega
      rw [e]
  · intro e he
    constructor
    · unfold normalizeSignal at he
      rcases bind_error he with he | ⟨a, _, he⟩
      · cases ho : extremum Ordering.gt ref.data with
        | none => rw [ho] at he; cases he; rfl
        | some x => rw [ho] at he; cases he
      · cases he
    · show vadPatchIndices p 30 m.ncols ref w = _
      unfold vadPatchIndices
      rw [he]; rfl

/-- C30: the patch starting at frame `14 + 30 k` is kept exactly when the signal is long enough for it and one of the frames
`30 k, ..., 30 k + 29` counted from sample 14 is active. -/
theorem C30_kept_iff (p : Profile) {ref : AudioSignal F} {w : AnalysisWindow F} (hs : w.size ≤ ref.data.length)
    (hh : 0 < w.hop) (h0 : 0 < w.size) (hc : 44 ≤ numColumns ref.data.length w.size w.hop) {norm : List F}
    (hn : normalizeSignal ref.data = .ok norm) {ix : List Nat}
    (hix : (PatchCreator.vad 30).indices p (numColumns ref.data.length w.size w.hop) ref w = .ok ix) (k : Nat) :
    14 + 30 * k ∈ ix ↔ 14 + 30 * k + 30 ≤ numColumns ref.data.length w.size w.hop ∧
      ∃ f, 30 * k ≤ f ∧ f < 30 * k + 30 ∧ Active norm w.hop f := by
  have hl := vad_slice_in_signal hs hh h0 hc
  replace hl := hl.trans_eq (normalizeSignal_length hn).symm
  have key := vadPatchIndices_eq p hc hh hn hl
  have hix : vadPatchIndices p 30 (numColumns ref.data.length w.size w.hop) ref w = .ok ix := hix
  rw [key] at hix
  cases hix
  generalize hnc : numColumns ref.data.length w.size w.hop = nc at *
  generalize hfl : (List.range ((nc - 14) / 30 * 30)).map
    (fun f => chunkActive (F := F) (judgedFrame norm w.hop f)) = flags
  have hfll : flags.length = (nc - 14) / 30 * 30 := by rw [← hfl]; simp
  have hvl : (vadResults flags).length = (nc - 14) / 30 * 30 := by rw [vadResults_length]; omega
  have hflag : ∀ f < (nc - 14) / 30 * 30, flags[f]? = some false ↔ ¬ Loud norm w.hop f := by
    intro f hf
    rw [← hfl, List.getElem?_map, List.getElem?_range hf, Option.map_some]
    have hb : 14 + f * w.hop + w.hop ≤ norm.length := by
      have : (f + 1) * w.hop ≤ (nc - 14) / 30 * 30 * w.hop := Nat.mul_le_mul_right _ hf
      rw [Nat.succ_mul] at this
      rw [Nat.mul_assoc] at this
      omega
    rw [← rms_active norm w.hop f hb]
    simp
  have hact : ∀ f < (nc - 14) / 30 * 30, (vadResults flags)[f]? = some true ↔ Active norm w.hop f := by
    intro f hf
    have h29 := (C29_smoothing flags).2.2 f (by omega)
    have hbool : (vadResults flags)[f]? = some true ↔ ¬ (vadResults flags)[f]? = some false := by
      rw [List.getElem?_eq_getElem (by omega)]
      cases (vadResults flags)[f] <;> simp
    rw [hbool, h29]
    unfold Active
    by_cases h2 : f < 2
    · simp [h2]
    · rw [hflag f hf, hflag (f - 1) (by omega), hflag (f - 2) (by omega)]
      constructor
      · intro h
        by_contra hcon
        exact h ⟨by omega, fun hx => hcon (.inr (.inl hx)), fun hx => hcon (.inr (.inr (.inl hx))),
          fun hx => hcon (.inr (.inr (.inr hx)))⟩
      · rintro (h | h | h | h) ⟨q1, q2, q3, q4⟩
        · omega
        · exact q2 h
        · exact q3 h
        · exact q4 h
  rw [selectPatches_mem]
  constructor
  · rintro ⟨k', c, h1, h2, h3⟩
    have : k' = k := by omega
    subst this
    rw [chunksIter_get (by decide) (le_of_eq hvl)] at h1
    split at h1
    · rename_i hk
      cases h1
      have hkb : k' < (nc - 14) / 30 := by omega
      refine ⟨by omega, ?_⟩
      obtain ⟨j, hj⟩ := List.getElem?_of_mem h3
      rw [List.getElem?_take] at hj
      split at hj
      · rw [List.getElem?_drop] at hj
        exact ⟨k' * 30 + j, by omega, by omega, (hact _ (by omega)).mp hj⟩
      · cases hj
    · cases h1
  · rintro ⟨h1, f, h2, h3, h4⟩
    refine ⟨k, _, (chunksIter_get (by decide) (le_of_eq hvl)).trans (if_pos (by omega)), rfl, ?_⟩
    have hf : f < (nc - 14) / 30 * 30 := by omega
    have := (hact f hf).mpr h4
    rw [List.mem_iff_getElem?]
    refine ⟨f - k * 30, ?_⟩
    rw [List.getElem?_take, if_pos (by omega), List.getElem?_drop, ← this]
    congr 1
    omega

/-- C30: the first patch is always kept. -/
theorem C30_first_kept (p : Profile) {ref : AudioSignal F} {w : AnalysisWindow F} (hs : w.size ≤ ref.data.length)
    (hh : 0 < w.hop) (h0 : 0 < w.size) (hc : 44 ≤ numColumns ref.data.length w.size w.hop) {norm : List F}
    (hn : normalizeSignal ref.data = .ok norm) {ix : List Nat}
    (hix : (PatchCreator.vad 30).indices p (numColumns ref.data.length w.size w.hop) ref w = .ok ix) : 14 ∈ ix := by
  have := (C30_kept_iff p hs hh h0 hc hn hix 0).mpr ⟨by omega, 0, by omega, by omega, .inl (by omega)⟩
  simpa using this

/-! ## C60: which samples decide about a patch -/

/-- C60: whether the patch of frames `14 + 30 k, ..., 43 + 30 k` is kept depends only on the normalised samples in
`[14 + (30 k - 2) hop, 14 + (30 k + 30) hop)`.  The frames of the patch consist of the samples in
`[(14 + 30 k) hop, (43 + 30 k) hop + size)`: everything in their second half can change without any effect. -/
theorem C60_decided_by_earlier_samples (p : Profile) {ref ref' : AudioSignal F} {w : AnalysisWindow F}
    (hs : w.size ≤ ref.data.length) (hlen : ref'.data.length = ref.data.length) (hh : 0 < w.hop) (h0 : 0 < w.size)
    (hc : 44 ≤ numColumns ref.data.length w.size w.hop) {norm norm' : List F} (hn : normalizeSignal ref.data = .ok norm)
    (hn' : normalizeSignal ref'.data = .ok norm') {ix ix' : List Nat}
    (hix : (PatchCreator.vad 30).indices p (numColumns ref.data.length w.size w.hop) ref w = .ok ix)
    (hix' : (PatchCreator.vad 30).indices p (numColumns ref.data.length w.size w.hop) ref' w = .ok ix') (k : Nat)
    (hsame : ∀ i, 14 + (30 * k - 2) * w.hop ≤ i → i < 14 + (30 * k + 30) * w.hop → norm[i]? = norm'[i]?) :
    14 + 30 * k ∈ ix ↔ 14 + 30 * k ∈ ix' := by
  have hfr : ∀ f, 30 * k - 2 ≤ f → f < 30 * k + 30 → (Loud norm w.hop f ↔ Loud norm' w.hop f) := by
    intro f h1 h2
    have e : judgedFrame norm w.hop f = judgedFrame norm' w.hop f := by
      unfold judgedFrame
      congr 1
      apply List.ext_getElem?
      intro j
      rw [List.getElem?_take, List.getElem?_take]
      split
      · rename_i hj
        rw [List.getElem?_drop, List.getElem?_drop]
        apply hsame
        · have : (30 * k - 2) * w.hop ≤ f * w.hop := Nat.mul_le_mul_right _ h1
          omega
        · have : (f + 1) * w.hop ≤ (30 * k + 30) * w.hop := Nat.mul_le_mul_right _ h2
          rw [Nat.succ_mul] at this; omega
      · rfl
    unfold Loud; rw [e]
  rw [C30_kept_iff p hs hh h0 hc hn hix k]
  have := C30_kept_iff p (ref := ref') (hlen ▸ hs) hh h0 (hlen ▸ hc) hn' (hlen ▸ hix') k
  rw [hlen] at this
  rw [this]
  have hA : ∀ f, 30 * k ≤ f → f < 30 * k + 30 → (Active norm w.hop f ↔ Active norm' w.hop f) := by
    intro f h1 h2
    unfold Active
    by_cases h : f < 2
    · simp [h]
    · rw [hfr f (by omega) h2, hfr (f - 1) (by omega) (by omega), hfr (f - 2) (by omega) (by omega)]
  constructor
  · rintro ⟨h1, f, h2, h3, h4⟩; exact ⟨h1, f, h2, h3, (hA f h2 h3).mp h4⟩
  · rintro ⟨h1, f, h2, h3, h4⟩; exact ⟨h1, f, h2, h3, (hA f h2 h3).mpr h4⟩

/-! ## C54: dropping patches at the end -/

theorem calcMaxLoop_spec {p : Profile} {ix : List Nat} {numDeg pp : Nat} (hb : numDeg + pp < usizeMod) : ∀ {m n : Nat},
    calcMaxNumPatchesLoop p ix numDeg pp m = .ok n → m ≤ ix.length → 1 ≤ n ∧ n ≤ m ∧
      (∃ i, ix[n - 1]? = some i ∧ pp / 2 ≤ i ∧ i ≤ numDeg + pp / 2) ∧
      ∀ k i, n ≤ k → k < m → ix[k]? = some i → i < pp / 2 ∨ numDeg + pp / 2 < i
  | 0, n, h, _ => by unfold calcMaxNumPatchesLoop at h; cases p <;> cases h
  | m + 1, n, h, hm => by
    unfold calcMaxNumPatchesLoop at h
    obtain ⟨i, hi, h⟩ := bind_ok h
    obtain ⟨d, hd, h⟩ := bind_ok h
    have hi := idx_ok hi
    split at h
    · rename_i hlt
      obtain ⟨h1, h2, h3, h4⟩ := calcMaxLoop_spec hb h (by omega)
      refine ⟨h1, by omega, h3, fun k j hk1 hk2 hj => ?_⟩
      by_cases hkm : k = m
      · subst hkm
        rw [hi] at hj; cases hj
        unfold usub at hd
        split at hd
        · cases hd; omega
        · left; omega
      · exact h4 k j hk1 (by omega) hj
    · rename_i hle
      cases h
      refine ⟨by omega, le_refl _, ⟨i, by simpa using hi, ?_, ?_⟩, fun k j hk1 hk2 _ => by omega⟩
      · unfold usub at hd
        split at hd
        · omega
        · cases p
          · cases hd
          · cases hd; omega
      · unfold usub at hd
        split at hd
        · cases hd; omega
        · cases p
          · cases hd
          · cases hd; omega

theorem find_calcMax {p : Profile} {rps : List (Mat F)} {ix : List Nat} {deg : Mat F} {fd : F} {radius : Int}
    {rs : List (PatchSim F)} (h : findMostOptimalDegPatches p rps ix deg fd radius = .ok rs) (hl : rps.length = ix.length)
    {pp : Nat} (hpp : ∀ q ∈ rps, q.ncols = pp) :
    calcMaxNumPatchesLoop p ix deg.ncols pp ix.length = .ok rs.length := by
  unfold findMostOptimalDegPatches at h
  obtain ⟨first, hf, h⟩ := bind_ok h
  have hf0 := idx_ok hf
  have hfp : first.ncols = pp := hpp _ (List.mem_of_getElem? hf0)
  obtain ⟨sw, _, h⟩ := bind_ok h
  obtain ⟨n, hn, h⟩ := bind_ok h
  have hne : ix.length ≠ 0 := by have := idx_ok_lt hf; omega
  unfold calcMaxNumPatches at hn
  rw [if_neg hne, hfp] at hn
  split at h
  · cases h
  · obtain ⟨dps, _, h⟩ := bind_ok h
    obtain ⟨rows, hrows, h⟩ := bind_ok h
    obtain ⟨li, _, h⟩ := bind_ok h
    obtain ⟨lo, _, h⟩ := bind_ok h
    obtain ⟨up, _, h⟩ := bind_ok h
    obtain ⟨up2, _, h⟩ := bind_ok h
    obtain ⟨lr, _, h⟩ := bind_ok h
    obtain ⟨best, _, h⟩ := bind_ok h
    have hrl := dpRows_length _ _ _ hrows
    have hcount : ∀ (l : List (Mat F × Nat × List Nat)) (o : Nat) (rs : List (PatchSim F)),
        backtrack p deg fd (fd * Flt.ofNat first.ncols) l o = .ok rs → rs.length = l.length := by
      intro l
      induction l with
      | nil => intro o rs h; cases h; rfl
      | cons x l ih =>
        intro o rs h
        obtain ⟨a, b, c⟩ := x
        obtain ⟨⟨r, back⟩, _, h⟩ := bind_ok h
        obtain ⟨rs', h2, h⟩ := bind_ok h
        cases h
        simp [ih _ _ h2]
    have := hcount _ _ _ h
    rw [List.length_reverse, List.length_take, List.length_zip, List.length_zip, List.length_map, hrl, List.length_zip] at this
    have hle := (calcMaxLoop_le hn).2
    rw [show rs.length = n by omega]
    exact hn

/-- C54: the coarse stage returns results for the first `n` reference patches, where patch `n` (the last one kept) starts at
most half a patch after the end of the degraded spectrogram and every later one starts even later. -/
theorem C54_dropped_from_end {p : Profile} {rps : List (Mat F)} {ix : List Nat} {deg : Mat F} {fd : F} {radius : Int}
    {rs : List (PatchSim F)} (h : findMostOptimalDegPatches p rps ix deg fd radius = .ok rs) (hl : rps.length = ix.length)
    {pp : Nat} (hpp : ∀ q ∈ rps, q.ncols = pp) (hsorted : ix.Pairwise (· < ·)) (hb : deg.ncols + pp < usizeMod) :
    1 ≤ rs.length ∧ rs.length ≤ ix.length ∧
    (∀ i, ix[rs.length - 1]? = some i → i ≤ deg.ncols + pp / 2) ∧
    ∀ k i, rs.length ≤ k → ix[k]? = some i → deg.ncols + pp / 2 < i := by
  obtain ⟨h1, h2, ⟨i, h3, h4, h5⟩, h6⟩ := calcMaxLoop_spec hb (find_calcMax h hl hpp) (le_refl _)
  refine ⟨h1, h2, fun j hj => by rw [h3] at hj; cases hj; exact h5, fun k j hk hj => ?_⟩
  have hkl := (List.getElem?_eq_some_iff.mp hj).1
  rcases h6 k j hk hkl hj with hlt | hgt
  · exfalso
    have e1 := (List.getElem?_eq_some_iff.mp h3)
    have e2 := (List.getElem?_eq_some_iff.mp hj)
    obtain ⟨b1, c1⟩ := e1
    obtain ⟨b2, c2⟩ := e2
    have := List.pairwise_iff_getElem.mp hsorted (rs.length - 1) k b1 b2 (by omega)
    omega
  · exact hgt

/-! ## C27 and C28: panics instead of errors -/

theorem usub_small (p : Profile) {a b c : Nat} (h : a < b) (hb : c + b < usizeMod) :
    usub p a b = .error (.panic .overflow) ∨ ∃ d, usub p a b = .ok d ∧ c < d := by
  unfold usub
  rw [if_neg (by omega)]
  cases p with
  | checked => exact .inl rfl
  | wrapping => exact .inr ⟨_, rfl, by omega⟩

/-- C28: coarse matching panics, and returns neither a result nor an error value, when the only patch that could be used
starts before half a patch. -/
theorem C28_find_panics {p : Profile} {rps : List (Mat F)} {i : Nat} {ix : List Nat} {deg : Mat F} {fd : F} {radius : Int}
    (hl : rps.length = ix.length + 1) {pp : Nat} (hpp : ∀ q ∈ rps, q.ncols = pp) (hi : i < pp / 2)
    (hrest : ∀ j ∈ ix, deg.ncols + pp / 2 < j) (hb : deg.ncols + pp < usizeMod) :
    ∃ q, findMostOptimalDegPatches p rps (i :: ix) deg fd radius = .error (.panic q) := by
  unfold findMostOptimalDegPatches
  obtain ⟨first, rest, rfl⟩ : ∃ a b, rps = a :: b := by
    cases rps with
    | nil => simp at hl
    | cons a b => exact ⟨a, b, rfl⟩
  have hfp : first.ncols = pp := hpp _ (by simp)
  rw [idx_of_lt (by simp : 0 < (first :: rest).length)]
  simp only [ok_bind, List.getElem_cons_zero, hfp]
  cases hsw : i32 p (radius * wrapI32 pp) with
  | error e =>
    refine ⟨.overflow, ?_⟩
    unfold i32 at hsw
    split at hsw
    · cases hsw
    · cases p <;> cases hsw
      rfl
  | ok sw =>
    simp only [ok_bind]
    suffices ∃ q, calcMaxNumPatches p (i :: ix) deg.ncols pp = .error (.panic q) by
      obtain ⟨q, hq⟩ := this
      exact ⟨q, by rw [hq]; rfl⟩
    unfold calcMaxNumPatches
    rw [if_neg (by simp)]
    have hloop : ∀ m ≤ (i :: ix).length, ∃ q, calcMaxNumPatchesLoop p (i :: ix) deg.ncols pp m = .error (.panic q) := by
      intro m
      induction m with
      | zero => intro _; unfold calcMaxNumPatchesLoop; cases p <;> exact ⟨_, rfl⟩
      | succ m ih =>
        intro hm
        obtain ⟨q, hq⟩ := ih (by omega)
        unfold calcMaxNumPatchesLoop
        rw [idx_of_lt hm]
        simp only [ok_bind]
        cases m with
        | zero =>
          simp only [List.getElem_cons_zero]
          rcases usub_small p hi (c := deg.ncols) (by omega) with hu | ⟨d, hu, hd⟩
          · rw [hu]; exact ⟨_, rfl⟩
          · rw [hu]
            simp only [ok_bind]
            rw [if_pos hd]
            exact ⟨q, hq⟩
        | succ m =>
          simp only [List.getElem_cons_succ]
          have hmi : m < ix.length := by simp at hm; omega
          have := hrest ix[m] (List.getElem_mem hmi)
          rw [usub_of_le (by omega)]
          simp only [ok_bind]
          rw [if_pos (by omega)]
          exact ⟨q, hq⟩
    exact hloop _ (le_refl _)

variable [RustFft F]

theorem numColumns_le {len size hop : Nat} : numColumns len size hop ≤ 1 + len := by
  unfold numColumns
  have := Nat.div_le_self (len - size) hop
  omega

section
variable {p : Profile} {nb : Nat} {fb : FilterBank F} {ref deg : AudioSignal F} {w : AnalysisWindow F} {pc : PatchCreator}
  {mapper : QualityMapper F} {sw : Nat} {res : SimilarityResult F}

/-- In every successful comparison the index list is not just a first patch starting before half a patch. -/
theorem Stages.not_one_patch (st : Stages p nb fb ref deg w pc mapper sw res) {i : Nat} (hi : i < pc.patchSize / 2)
    (hd : deg.data.length + 1 + pc.patchSize < usizeMod) : st.ix ≠ [i] := by
  intro hix
  obtain ⟨h1, h2, h3, h4, h5, h6⟩ := st.shapes
  obtain ⟨c1, c2⟩ := createPatches_ok st.created h1
  have hfound := st.found
  rw [hix] at hfound c1
  have hb : st.degM.ncols + pc.patchSize < usizeMod := by
    have := @numColumns_le deg.data.length w.size w.hop
    omega
  obtain ⟨q, hq⟩ := C28_find_panics (ix := []) (fd := Flt.ofNat w.size * w.overlap / Flt.ofNat ref.sampleRate)
    (radius := wrapI32 sw) (p := p) (deg := st.degM) c1 (fun q hq => (c2 q hq).2.2) hi (by simp) hb
  rw [hq] at hfound
  cases hfound

end

/-- C28, fullband: a reference of at most 50 columns never gets a score.  (Below 30 columns it gets the error of C25; between
30 and 50 columns there is one patch and coarse matching panics by `C28_find_panics`.) -/
theorem C28_fullband {p : Profile} {m : Manager F} {ref deg : AudioSignal F} (hm : m.patchCreator = .image 20)
    (hlen : ref.data.length + deg.data.length < 9223372036854775808)
    (hc : numColumns ref.data.length (AnalysisWindow.mk' (F := F) ref.sampleRate 0.25 0.08).size
      (AnalysisWindow.mk' (F := F) ref.sampleRate 0.25 0.08).hop ≤ 50) (x : Manager F × SimilarityResult F) :
    m.computeResults p ref deg ≠ .ok x := by
  intro h
  obtain ⟨al, lag, hal, ⟨st⟩⟩ := computeResults_stages (m' := x.1) (res := x.2) h
  revert st
  rw [hm]
  intro st
  obtain ⟨_, _, _, _, h5, _⟩ := st.shapes
  have hix := st.ixs
  have hlal := globallyAlign_length hal
  rw [← h5] at hc
  by_cases h30 : st.refM.ncols < 30
  · rw [C25_too_small p h30] at hix; cases hix
  · obtain ⟨k, hk1, hk2, hk3, _⟩ := C25_tiling p (m := st.refM) (by omega) ref
      (AnalysisWindow.mk' (F := F) ref.sampleRate 0.25 0.08)
    have : k = 1 := by
      have := (hk3 1).not.mpr (by omega)
      omega
    subst this
    rw [hk2] at hix
    refine st.not_one_patch (i := 9) (by decide) ?_ (Except.ok.inj hix).symm
    show _ + 1 + 20 < _
    unfold usizeMod; omega

/-- C28, wideband: if no frame judging the second or a later patch is active, the run never gets a score. -/
theorem C28_wideband {p : Profile} {m : Manager F} {ref deg : AudioSignal F} (hm : m.patchCreator = .vad 30)
    (hlen : ref.data.length + deg.data.length < 9223372036854775808)
    (hq : ∀ norm, normalizeSignal ref.data = .ok norm → ∀ f, 30 ≤ f →
      f < numColumns ref.data.length (AnalysisWindow.mk' (F := F) ref.sampleRate 0.25 0.08).size
        (AnalysisWindow.mk' (F := F) ref.sampleRate 0.25 0.08).hop →
      ¬ Active norm (AnalysisWindow.mk' (F := F) ref.sampleRate 0.25 0.08).hop f)
    (h44 : 44 ≤ numColumns ref.data.length (AnalysisWindow.mk' (F := F) ref.sampleRate 0.25 0.08).size
      (AnalysisWindow.mk' (F := F) ref.sampleRate 0.25 0.08).hop) (x : Manager F × SimilarityResult F) :
    m.computeResults p ref deg ≠ .ok x := by
  intro h
  obtain ⟨al, lag, hal, ⟨st⟩⟩ := computeResults_stages (m' := x.1) (res := x.2) h
  revert st
  rw [hm]
  intro st
  obtain ⟨_, _, _, _, h5, _⟩ := st.shapes
  have hix := st.ixs
  have hlal := globallyAlign_length hal
  have h26 := C26_wideband p st.hsr st.hhop st.hsize h5 (h5 ▸ h44)
  cases hn : normalizeSignal ref.data with
  | error e => rw [(h26.2 e hn).2] at hix; cases hix
  | ok norm =>
    obtain ⟨ix, h1, h2, h3, h4, _⟩ := h26.1 norm hn
    rw [hix] at h1
    cases h1
    have hall : ∀ i ∈ st.ix, i = 14 := by
      intro i hi
      obtain ⟨k, hk, rfl⟩ := List.mem_map.mp (h2.subset hi)
      by_cases hk0 : k = 0
      · subst hk0; rfl
      · exfalso
        rw [h5] at hix
        obtain ⟨_, f, f1, f2, f3⟩ := (C30_kept_iff p st.hsr st.hhop st.hsize h44 hn hix k).mp hi
        exact hq norm hn f (by omega) (by omega) f3
    have hnd : st.ix.Nodup := h2.nodup (List.Nodup.map (fun a b hab => by simpa using hab) List.nodup_range)
    have h14 : st.ix = [14] := by
      have hrep : st.ix = List.replicate st.ix.length 14 := List.eq_replicate_iff.mpr ⟨rfl, hall⟩
      rw [hrep] at hnd
      have hle : st.ix.length ≤ 1 := List.nodup_replicate.mp hnd
      have hpos := List.length_pos_of_mem h4
      rw [hrep, show st.ix.length = 1 by omega]; rfl
    refine st.not_one_patch (i := 14) (by decide) ?_ h14
    show _ + 1 + 30 < _
    unfold usizeMod; omega

/-- C28: no run and no comparison ever returns `SignalsTooDifferent` (nor `FailedToComputeVad`). -/
theorem C28_never_too_different (p : Profile) (m : Manager F) :
    (∀ ref deg, m.computeResults p ref deg ≠ .error (.err .signalsTooDifferent) ∧
      m.computeResults p ref deg ≠ .error (.err .failedToComputeVad)) ∧
    ∀ world r d, m.run p world r d ≠ .error (.err .signalsTooDifferent) ∧
      m.run p world r d ≠ .error (.err .failedToComputeVad) := by
  have hc : ∀ ref deg, Errs (fun e => e ≠ .signalsTooDifferent ∧ e ≠ .failedToComputeVad) (m.computeResults p ref deg) :=
    fun ref deg => errs_computeResults (by simp) (by simp) (by simp)
  refine ⟨fun ref deg => ⟨fun h => ((hc ref deg).out _ h).1 rfl, fun h => ((hc ref deg).out _ h).2 rfl⟩, fun world r d => ?_⟩
  have hr : ∀ e, m.run p world r d = .error (.err e) → e ≠ .signalsTooDifferent ∧ e ≠ .failedToComputeVad := by
    intro e h
    unfold Manager.run at h
    rcases bind_error h with h | ⟨ref, _, h⟩
    · obtain ⟨_, _, _, _, _, _, rfl⟩ := load_err h; simp
    rcases bind_error h with h | ⟨deg, _, h⟩
    · obtain ⟨_, _, _, _, _, _, rfl⟩ := load_err h; simp
    rcases bind_error h with h | ⟨_, _, h⟩
    · unfold validateInputAudio at h
      split at h <;> cases h
      simp
    · exact (hc ref deg).out e h
  exact ⟨fun h => (hr _ h).1 rfl, fun h => (hr _ h).2 rfl⟩

omit [RustFft F] in
/-- C27, the failing step: with fewer than 44 columns, creating the wideband patches panics. -/
theorem C27_patches_panic (p : Profile) {m : Mat F} {ref : AudioSignal F} {w : AnalysisWindow F} (hc : m.ncols < 44)
    (hh : 0 < w.hop) (hlen : ref.data.length < 9223372036854775808) :
    ∃ q, ((PatchCreator.vad 30).indices p m.ncols ref w >>= createPatches 30 m) = .error (.panic q) := by
  show ∃ q, (vadPatchIndices p 30 m.ncols ref w >>= createPatches 30 m) = .error (.panic q)
  unfold vadPatchIndices
  cases hn : normalizeSignal ref.data with
  | error e =>
    unfold normalizeSignal at hn
    cases ho : extremum Ordering.gt ref.data with
    | none => rw [ho] at hn; cases hn; exact ⟨_, rfl⟩
    | some x => rw [ho] at hn; cases hn
  | ok norm =>
    have hnl := normalizeSignal_length hn
    simp only [ok_bind]
    rw [usub_of_le (by decide)]
    simp only [ok_bind]
    have e14 : (30 / 2 - 1 : Nat) = 14 := rfl
    rw [e14]
    by_cases h14 : m.ncols < 14
    · rcases usub_small p h14 (c := usizeMod - 16) (by unfold usizeMod; omega) with hu | ⟨d, hu, hd⟩
      · rw [hu]; exact ⟨_, rfl⟩
      · rw [hu]
        simp only [ok_bind]
        rw [if_neg (by decide)]
        unfold voiceActivity sliceM
        have hbig : ¬ (14 ≤ 14 + d / 30 * (30 * w.hop) ∧ 14 + d / 30 * (30 * w.hop) ≤ norm.length) := by
          intro h
          have h1 : d / 30 * 30 * 1 ≤ d / 30 * 30 * w.hop := Nat.mul_le_mul_left _ hh
          rw [Nat.mul_assoc (d / 30) 30 w.hop] at h1
          unfold usizeMod at hd
          omega
        rw [if_neg hbig]
        exact ⟨_, rfl⟩
    · rw [usub_of_le (by omega)]
      simp only [ok_bind]
      rw [if_neg (by decide)]
      have h0 : (m.ncols - 14) / 30 = 0 := by omega
      rw [h0]
      unfold voiceActivity sliceM
      by_cases hn14 : 14 ≤ norm.length
      · rw [if_pos (by omega)]
        simp only [ok_bind]
        have : (List.drop 14 norm).take (14 + 0 * (30 * w.hop) - 14) = [] := by simp
        rw [this]
        have hff : fullFrames w.hop (([] : List F).map toPcm) = [] := by
          unfold fullFrames
          rw [if_neg (by omega)]
          simp [chunksOf]
        rw [hff]
        refine ⟨.slice, ?_⟩
        show createPatches 30 m [14] = _
        unfold createPatches mapE Mat.sliceCols
        rw [if_neg (by omega)]
        rfl
      · rw [if_neg (by omega)]
        exact ⟨_, rfl⟩

/-- C27: a wideband comparison whose reference has fewer than 44 columns never returns a result; the only error values it can
return are those of the stages before patch creation. -/
theorem C27_short_wideband {p : Profile} {m : Manager F} {ref deg : AudioSignal F} (hm : m.patchCreator = .vad 30)
    (hlen : ref.data.length < 9223372036854775808)
    (hc : numColumns ref.data.length (AnalysisWindow.mk' (F := F) ref.sampleRate 0.25 0.08).size
      (AnalysisWindow.mk' (F := F) ref.sampleRate 0.25 0.08).hop < 44) :
    (∀ x, m.computeResults p ref deg ≠ .ok x) ∧
    ∀ e, m.computeResults p ref deg = .error (.err e) → e = .failedToAlignSignals ∨
      ∃ n, e = .tooFewSamples n (AnalysisWindow.mk' (F := F) ref.sampleRate 0.25 0.08).size ∧
        n < (AnalysisWindow.mk' (F := F) ref.sampleRate 0.25 0.08).size := by
  constructor
  · intro x h
    obtain ⟨al, lag, hal, ⟨st⟩⟩ := computeResults_stages (m' := x.1) (res := x.2) h
    revert st
    rw [hm]
    intro st
    obtain ⟨_, _, _, _, h5, _⟩ := st.shapes
    obtain ⟨q, hq⟩ := C27_patches_panic p (m := st.refM) (by omega) st.hhop hlen
    rw [st.ixs, ok_bind] at hq
    have := st.created
    rw [show (PatchCreator.vad 30).patchSize = 30 from rfl, hq] at this
    cases this
  · intro e he
    exact (errs_computeResults (P := fun e => e = .failedToAlignSignals ∨
      ∃ n, e = .tooFewSamples n (AnalysisWindow.mk' (F := F) ref.sampleRate 0.25 0.08).size ∧
        n < (AnalysisWindow.mk' (F := F) ref.sampleRate 0.25 0.08).size) (.inl rfl) (fun n hn => .inr ⟨n, rfl, hn⟩)
      (fun c n h => by rw [hm] at h; cases h)).out e he

/-! ## C31: level invariance -/

theorem extremum_scale {g : ℝ} (hg : 0 < g) (l : List ℝ) :
    extremum .gt (l.map (· * g)) = (extremum .gt l).map (· * g) := by
  unfold extremum
  cases l with
  | nil => rfl
  | cons a l =>
    have key : ∀ (l : List ℝ) (acc : Option ℝ),
        (l.map (· * g)).foldl (fun acc x => do
          let m ← acc
          let c ← Flt.partialCmp x m
          some (if c = Ordering.gt then x else m)) (acc.map (· * g)) =
        (l.foldl (fun acc x => do
          let m ← acc
          let c ← Flt.partialCmp x m
          some (if c = Ordering.gt then x else m)) acc).map (· * g) := by
      intro l
      induction l with
      | nil => intro acc; rfl
      | cons x l ih =>
        intro acc
        rw [List.map_cons, List.foldl_cons, List.foldl_cons, ← ih]
        congr 1
        cases acc with
        | none => rfl
        | some m =>
          simp only [Option.map_some, Option.bind_eq_bind, Option.bind_some, real_partialCmp, mul_lt_mul_iff_left₀ hg]
          rw [ite_mul]
    exact key (a :: l) (some a)

/-- C31: a positive gain on the reference does not change the wideband patch selection (exact arithmetic). -/
theorem C31_level_invariant (p : Profile) (n nc : Nat) (ref : AudioSignal ℝ) (w : AnalysisWindow ℝ) {g : ℝ} (hg : 0 < g) :
    (PatchCreator.vad n).indices p nc ⟨ref.data.map (· * g), ref.sampleRate⟩ w = (PatchCreator.vad n).indices p nc ref w := by
  show vadPatchIndices p n nc _ w = vadPatchIndices p n nc ref w
  have : normalizeSignal (ref.data.map (· * g)) = normalizeSignal ref.data := by
    unfold normalizeSignal
    rw [extremum_scale hg]
    cases extremum .gt ref.data with
    | none => rfl
    | some m =>
      simp only [Option.map_some, expect, ok_bind, List.map_map]
      congr 1
      apply List.map_congr_left
      intro x _
      simp only [Function.comp]
      exact mul_div_mul_right x m hg.ne'
  unfold vadPatchIndices
  dsimp only
  rw [this]

/-! ## C60: speech that is dropped -/

theorem normalize_step {A B : Nat} (hB : 0 < B) :
    normalizeSignal (List.replicate A (0 : ℝ) ++ List.replicate B 1) = .ok (List.replicate A 0 ++ List.replicate B 1) := by
  unfold normalizeSignal
  obtain ⟨m, h1, h2, h3⟩ := extremum_max (l := List.replicate A (0 : ℝ) ++ List.replicate B 1) (by simp; omega)
  have hm : m = 1 := by
    have h4 := h3 1 (by simp; omega)
    rcases List.mem_append.mp h2 with h | h
    · have := List.eq_of_mem_replicate h; linarith
    · exact List.eq_of_mem_replicate h
  rw [h1, hm]
  simp [expect]

/-- C60: a full-scale signal that starts after the samples judging patch `k ≥ 1` does not keep the patch, although it fills
the last 13 of the patch's own 30 frames (frames `30 k + 31` to `30 k + 43`) completely. -/
theorem C60_speech_dropped (p : Profile) {w : AnalysisWindow ℝ} {sr k B : Nat} (hk : 1 ≤ k) (hB : 0 < B)
    (hs : w.size ≤ 14 + (30 * k + 30) * w.hop + B) (hh : 0 < w.hop) (h0 : 0 < w.size)
    (hc : 14 + 30 * k + 30 ≤ numColumns (14 + (30 * k + 30) * w.hop + B) w.size w.hop) (h14 : 14 ≤ w.hop) :
    let ref : AudioSignal ℝ := ⟨List.replicate (14 + (30 * k + 30) * w.hop) 0 ++ List.replicate B 1, sr⟩
    (∃ ix, (PatchCreator.vad 30).indices p (numColumns ref.data.length w.size w.hop) ref w = .ok ix ∧ 14 + 30 * k ∉ ix) ∧
    ∀ j, 30 * k + 31 ≤ j → j < 14 + 30 * k + 30 → ∀ x ∈ frameAt ref w j, x = 1 := by
  intro ref
  have hlen : ref.data.length = 14 + (30 * k + 30) * w.hop + B := by
    simp only [ref, List.length_append, List.length_replicate]
  have hn : normalizeSignal ref.data = .ok ref.data := normalize_step hB
  rw [← hlen] at hs hc
  constructor
  · obtain ⟨ix, h1, _⟩ := (C26_wideband (F := ℝ) p (m := ⟨numColumns ref.data.length w.size w.hop, []⟩) hs hh h0 rfl
      (show 44 ≤ numColumns ref.data.length w.size w.hop by omega)).1 _ hn
    refine ⟨ix, h1, fun hmem => ?_⟩
    obtain ⟨_, f, f1, f2, f3⟩ := (C30_kept_iff p hs hh h0 (by omega) hn h1 k).mp hmem
    have hquiet : ∀ g, g < 30 * k + 30 → ¬ Loud ref.data w.hop g := by
      intro g hg hl
      have hz : judgedFrame ref.data w.hop g = List.replicate w.hop 0 := by
        unfold judgedFrame
        have hb : 14 + g * w.hop + w.hop ≤ 14 + (30 * k + 30) * w.hop := by
          have : (g + 1) * w.hop ≤ (30 * k + 30) * w.hop := Nat.mul_le_mul_right _ hg
          rw [Nat.succ_mul] at this; omega
        have hd : (List.drop (14 + g * w.hop) ref.data).take w.hop = List.replicate w.hop 0 := by
          simp only [ref]
          rw [List.drop_append_of_le_length (by simp only [List.length_replicate]; omega), List.drop_replicate,
            List.take_append_of_le_length (by simp only [List.length_replicate]; omega), List.take_replicate]
          congr 1; omega
        rw [hd, List.map_replicate]
        congr 1
        unfold toPcm
        have h0 : Flt.toI16 ((0 : ℝ) * Flt.ofInt 32768) = 0 := by
          rw [zero_mul]
          show realToInt _ _ 0 = 0
          simp [realToInt, realTrunc]
        rw [h0]
        have h1 : Flt.min (Flt.max (Flt.ofInt (-32768)) ((1.0 : ℝ) * Flt.ofInt 32767)) (Flt.ofInt 0) = (0 : ℝ) := by
          simp only [real_min, real_max, real_lit1, real_ofInt]; norm_num
        dsimp only
        rw [h1]
        show realToInt _ _ 0 = 0
        simp [realToInt, realTrunc]
      unfold Loud at hl
      rw [hz] at hl
      simp only [List.map_replicate, List.sum_replicate, mul_zero, real_lt, real_sqrt, real_ofInt, real_ofNat, smul_zero,
        Int.cast_zero, zero_div, Real.sqrt_zero, real_sci, decide_eq_false_iff_not] at hl
      norm_num at hl
    rcases f3 with h | h | h | h
    · omega
    · exact hquiet _ f2 h
    · exact hquiet _ (by omega) h
    · exact hquiet _ (by omega) h
  · intro j hj1 hj2 x hx
    unfold frameAt at hx
    have hx := List.mem_of_mem_take hx
    have hle : 14 + (30 * k + 30) * w.hop ≤ j * w.hop := by
      have : (30 * k + 31) * w.hop ≤ j * w.hop := Nat.mul_le_mul_right _ hj1
      have e : (30 * k + 31) * w.hop = (30 * k + 30) * w.hop + w.hop := by rw [← Nat.succ_mul]
      omega
    simp only [ref] at hx
    rw [List.drop_append, List.drop_of_length_le (by simp only [List.length_replicate]; omega), List.nil_append,
      List.drop_replicate] at hx
    exact List.eq_of_mem_replicate hx

example : let w : AnalysisWindow ℝ := ⟨1280, 0.25⟩
    (1 ≤ 1 ∧ 0 < 30000 ∧ w.size ≤ 14 + (30 * 1 + 30) * w.hop + 30000 ∧ 0 < w.hop ∧ 0 < w.size ∧
      14 + 30 * 1 + 30 ≤ numColumns (14 + (30 * 1 + 30) * w.hop + 30000) w.size w.hop ∧ 14 ≤ w.hop) := by
  have : (⟨1280, 0.25⟩ : AnalysisWindow ℝ).hop = 320 := hop_quarter rfl (by norm_num)
  simp [numColumns, this]

end Visqol
