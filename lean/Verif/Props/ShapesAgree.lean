import Verif.Lemmas.NoShape
import Verif.Lemmas.Fine

/-! # Only patches of the same shape are compared (C65) -/

set_option linter.unusedSectionVars false

namespace Visqol

section
variable {F : Type} [Flt F]

/-- The shape of the convolution of an `n × c` matrix. -/
def ConvShape (p : Profile) (n c : ℕ) (m : Mat F) : Prop := outSize p (n + 2) 3 = .ok m.nrows ∧ outSize p (c + 2) 3 = .ok m.ncols

theorem ConvShape.same {p : Profile} {n c : ℕ} {a b : Mat F} (ha : ConvShape p n c a) (hb : ConvShape p n c b) : a.SameShape b := by
  obtain ⟨a1, a2⟩ := ha
  obtain ⟨b1, b2⟩ := hb
  rw [a1] at b1; rw [a2] at b2
  injection b1 with b1; injection b2 with b2
  exact ⟨b1, b2⟩

theorem conv2d_shape {p : Profile} {m c : Mat F} (h : conv2d p nsimWindow m = .ok c) : ConvShape p m.nrows m.ncols c := by
  unfold conv2d at h
  obtain ⟨orc, h1, h⟩ := bind_ok h
  obtain ⟨occ, h2, h⟩ := bind_ok h
  obtain ⟨rows, h3, h⟩ := bind_ok h
  cases h
  rw [addMatrixBoundary_nrows] at h1
  rw [addMatrixBoundary_ncols] at h2
  refine ⟨?_, h2⟩
  have := mapE_ok_length h3
  rw [List.length_range] at this
  show outSize p (m.nrows + 2) 3 = .ok rows.length
  rw [this]
  exact h1

theorem zip_shape {f : F → F → F} {a b c : Mat F} (h : Mat.zip f a b = .ok c) : c.nrows = a.nrows ∧ c.ncols = a.ncols := by
  obtain ⟨_, h2, rfl⟩ := Mat.zip_ok h
  exact ⟨by simp [Mat.nrows, h2], rfl⟩

theorem ConvShape.zip {p : Profile} {n c : ℕ} {f : F → F → F} {a b m : Mat F} (ha : ConvShape p n c a) (h : Mat.zip f a b = .ok m) :
    ConvShape p n c m := by
  obtain ⟨h1, h2⟩ := zip_shape h
  rw [ConvShape, h1, h2]; exact ha

theorem ConvShape.map {p : Profile} {n c : ℕ} {f : F → F} {a : Mat F} (ha : ConvShape p n c a) : ConvShape p n c (a.map f) := by
  rw [ConvShape, Mat.map_nrows, Mat.map_ncols]; exact ha

theorem shaped_simMap (p : Profile) {a b : Mat F} (hs : a.SameShape b) : Shaped (simMap p a b) := by
  have cv : ∀ {m c : Mat F}, m.nrows = a.nrows → m.ncols = a.ncols → conv2d p nsimWindow m = .ok c → ConvShape p a.nrows a.ncols c := by
    intro m c h1 h2 h
    rw [← h1, ← h2]; exact conv2d_shape h
  unfold simMap
  refine Shaped.mk_bind' (shaped_conv2d ..) fun mr e1 => Shaped.mk_bind' (shaped_conv2d ..) fun md e2 => ?_
  have s1 := cv rfl rfl e1
  have s2 := cv hs.1.symm hs.2.symm e2
  refine Shaped.mk_bind' (Shaped.mk_zip _ (s1.same s1)) fun rmu e3 => Shaped.mk_bind' (Shaped.mk_zip _ (s2.same s2)) fun dmu e4 =>
    Shaped.mk_bind' (Shaped.mk_zip _ (s1.same s2)) fun mrd e5 => ?_
  have s3 := s1.zip e3
  have s4 := s2.zip e4
  have s5 := s1.zip e5
  refine Shaped.mk_bind' (Shaped.mk_zip _ ⟨rfl, rfl⟩) fun rsq e6 => Shaped.mk_bind' (Shaped.mk_zip _ ⟨rfl, rfl⟩) fun dsq e7 => ?_
  have z6 := zip_shape e6
  have z7 := zip_shape e7
  refine Shaped.mk_bind' (shaped_conv2d ..) fun crs e8 => ?_
  have s8 := cv z6.1 z6.2 e8
  refine Shaped.mk_bind' (Shaped.mk_zip _ (s8.same s3)) fun srs e9 => Shaped.mk_bind' (shaped_conv2d ..) fun cds e10 => ?_
  have s9 := s8.zip e9
  have s10 := cv (z7.1.trans hs.1.symm) (z7.2.trans hs.2.symm) e10
  refine Shaped.mk_bind' (Shaped.mk_zip _ (s10.same s4)) fun sds e11 => Shaped.mk_bind' (Shaped.mk_zip _ hs) fun rd e12 => ?_
  have s11 := s10.zip e11
  have z12 := zip_shape e12
  refine Shaped.mk_bind' (shaped_conv2d ..) fun crd e13 => ?_
  have s13 := cv z12.1 z12.2 e13
  refine Shaped.mk_bind' (Shaped.mk_zip _ (s13.same s5)) fun srd e14 => ?_
  have s14 := s13.zip e14
  refine Shaped.mk_bind' (Shaped.mk_zip _ (s3.same s4)) fun iden e15 => ?_
  have s15 := s3.zip e15
  refine Shaped.mk_bind' (Shaped.mk_zip _ (s5.map.same s15)) fun inten e16 => ?_
  have s16 := s5.map.zip e16
  refine Shaped.mk_bind' (Shaped.mk_zip _ (s9.same s11)) fun sden e17 => ?_
  have s17 := s9.zip e17
  refine Shaped.mk_bind' (Shaped.mk_zip _ (s14.map.same s17.map)) fun str e18 => ?_
  exact Shaped.mk_zip _ (s16.same (s14.map.zip e18))

theorem shaped_measure (p : Profile) {a b : Mat F} (hs : a.SameShape b) : Shaped (measurePatchSimilarity p a b) := by
  unfold measurePatchSimilarity
  exact Shaped.mk_bind (shaped_simMap p hs) fun sm => by shaped

theorem shaped_slideLoop {σ : Type} {hi : Int} {nc : Nat} {body : σ → Nat → M σ} (h : ∀ s o, Shaped (body s o)) :
    ∀ (n : Nat) (o : Int) (s : σ), (hi + 1 - o).toNat = n → Shaped (slideLoop hi nc body o s) := by
  intro n
  induction n using Nat.strongRecOn with
  | ind n ih =>
    intro o s hn
    unfold slideLoop
    split
    · split
      · exact ih _ (by omega) _ _ rfl
      · split
        · exact Shaped.mk_ok _
        · exact Shaped.mk_bind (h _ _) fun s' => ih _ (by omega) _ _ rfl
    · exact Shaped.mk_ok _

theorem shaped_findOne (p : Profile) (nc : Nat) {rp : Mat F} {dps : List (Mat F)} (prev : Option (Nat × List F)) (ri : Nat)
    (sw : Int) (hs : ∀ d ∈ dps, rp.SameShape d) : Shaped (findMostOptimalDegPatch p nc rp dps prev ri sw) := by
  unfold findMostOptimalDegPatch
  refine Shaped.mk_bind (Shaped.mk_i32 _ _) fun lo => Shaped.mk_bind (Shaped.mk_i32 _ _) fun hi => shaped_slideLoop (fun st o => ?_) _ _ _ rfl
  refine Shaped.mk_bind' (Shaped.mk_idx _ _) fun d hd => ?_
  have hm : d ∈ dps := by
    unfold idx at hd
    split at hd
    · cases hd; rename_i h; exact List.mem_of_getElem? h
    · cases hd
  refine Shaped.mk_bind (shaped_measure p (hs d hm)) fun sim => ?_
  shaped [shaped_dpCell]

theorem shaped_dpRows (p : Profile) (nc : Nat) {dps : List (Mat F)} (sw : Int) : ∀ (l : List (Mat F × Nat)) (prev),
    (∀ x ∈ l, ∀ d ∈ dps, x.1.SameShape d) → Shaped (dpRows p nc dps sw prev l)
  | [], _, _ => Shaped.mk_ok _
  | (m, i) :: l, prev, h => by
    unfold dpRows
    exact Shaped.mk_bind (shaped_findOne _ _ _ _ _ (h (m, i) (by simp))) fun r =>
      Shaped.mk_bind (shaped_dpRows p nc sw l _ fun x hx => h x (by simp [hx])) fun _ => Shaped.mk_ok _

theorem shaped_backtrack (p : Profile) {deg : Mat F} (wd : deg.WF) (a b : F) : ∀ (l : List (Mat F × Nat × List Nat)) (o : Nat),
    (∀ x ∈ l, x.1.nrows = deg.nrows) → Shaped (backtrack p deg a b l o)
  | [], _, _ => Shaped.mk_ok _
  | (m, i, bt) :: l, o, h => by
    unfold backtrack
    refine Shaped.mk_bind ?_ fun r => Shaped.mk_bind (shaped_backtrack p wd a b l _ fun x hx => h x (by simp [hx])) fun _ => Shaped.mk_ok _
    unfold backtraceStep
    refine Shaped.mk_bind' (shaped_buildDeg ..) fun d hd => ?_
    obtain ⟨_, d2, d3, _⟩ := buildDegradedPatch_ok hd wd
    refine Shaped.mk_bind (shaped_measure p ⟨(h (m, i, bt) (by simp)).trans d2.symm, d3.symm⟩) fun r => ?_
    shaped

theorem shaped_find (p : Profile) {rps : List (Mat F)} (ix : List Nat) {deg : Mat F} (fd : F) (radius : Int) (wd : deg.WF) {P : ℕ}
    (hr : ∀ q ∈ rps, q.nrows = deg.nrows ∧ q.ncols = P) : Shaped (findMostOptimalDegPatches p rps ix deg fd radius) := by
  unfold findMostOptimalDegPatches
  refine Shaped.mk_bind' (Shaped.mk_idx _ _) fun first hf => ?_
  have hfm : first ∈ rps := by
    unfold idx at hf
    split at hf
    · cases hf; rename_i h; exact List.mem_of_getElem? h
    · cases hf
  refine Shaped.mk_bind (Shaped.mk_i32 _ _) fun sw => Shaped.mk_bind (shaped_calcMax _ _ _ _) fun n => ?_
  split
  · exact Shaped.mk_err _
  refine Shaped.mk_bind' (Shaped.mk_mapE (fun o => shaped_buildDeg ..) _) fun dps hd => ?_
  refine Shaped.mk_bind (shaped_dpRows _ _ _ _ _ fun x hx d hdm => ?_) fun rows => ?_
  · obtain ⟨o, _, ho⟩ := mapE_ok_mem hd hdm
    obtain ⟨_, d2, d3, _⟩ := buildDegradedPatch_ok ho wd
    have hx := hr _ (List.of_mem_zip hx).1
    exact ⟨hx.1.trans d2.symm, by rw [hx.2, d3, (hr first hfm).2]⟩
  · refine Shaped.mk_bind (Shaped.mk_idx _ _) fun _ => Shaped.mk_bind (Shaped.mk_i32 _ _) fun _ => Shaped.mk_bind (Shaped.mk_uadd _ _ _) fun _ =>
      Shaped.mk_bind (Shaped.mk_uadd _ _ _) fun _ => Shaped.mk_bind (Shaped.mk_idx _ _) fun _ => Shaped.mk_bind (shaped_lastScan ..) fun _ =>
      shaped_backtrack p wd _ _ _ _ fun x hx => ?_
    have hx := List.mem_of_mem_take (List.mem_reverse.mp hx)
    exact (hr _ (List.of_mem_zip hx).1).1

end

section
variable {F : Type} [Flt F] [RustFft F]

theorem shaped_inverse {m : FftManager} {s : List (Cpx F)} (h : s.length = m.fftSize) : Shaped (inverse1d m s) := by
  unfold inverse1d
  rw [if_neg (by simpa using h)]
  dsimp only
  shaped

theorem forward1d_len (m : FftManager) (s : List F) : (forward1d m s).length = m.fftSize := by
  simp [forward1d, RustFft.length_forward, resize_length]

theorem setIdx_len {α : Type} {l l' : List α} {i : ℕ} {a : α} (h : setIdx l i a = .ok l') : l'.length = l.length := by
  unfold setIdx at h
  split at h
  · cases h; simp
  · cases h

theorem hilbertScaling_len {a n : ℕ} {v : List F} (h : hilbertScaling (F := F) a n = .ok v) : v.length = n := by
  unfold hilbertScaling at h
  dsimp only at h
  obtain ⟨v1, h1, h⟩ := bind_ok h
  have l1 := setIdx_len h1
  rw [List.length_replicate] at l1
  have last : ∀ {v2 : List F} {k : ℕ}, v2.length = n →
      (if 1 ≤ k ∧ k ≤ v2.length then (.ok (List.mapIdx (fun i x => if 1 ≤ i ∧ i < k then 2.0 else x) v2) : M (List F))
        else .error (.panic .slice)) = .ok v → v.length = n := by
    intro v2 k hl h
    split at h
    · cases h; simpa using hl
    · cases h
  split at h
  · obtain ⟨v2, h2, h⟩ := bind_ok h
    exact last ((setIdx_len h2).trans l1) h
  · split at h
    · obtain ⟨v2, h2, h⟩ := bind_ok h
      exact last ((setIdx_len h2).trans l1) h
    · exact last l1 h

theorem shaped_env (p : Profile) (s : List F) : Shaped (calculateUpperEnv p s) := by
  unfold calculateUpperEnv
  split
  · exact Shaped.mk_ok _
  · refine Shaped.mk_bind ?_ fun _ => Shaped.mk_ok _
    unfold calculateHilbert
    refine Shaped.mk_bind (shaped_fftNew ..) fun m => Shaped.mk_bind' (by unfold hilbertScaling; dsimp only; shaped) fun sc hsc =>
      Shaped.mk_bind (shaped_inverse ?_) fun _ => Shaped.mk_ok _
    rw [List.length_zipWith, hilbertScaling_len hsc, Nat.min_self, forward1d_len]

theorem shaped_lag (p : Profile) (a b : List F) : Shaped (calculateBestLag p a b) := by
  have key : Shaped (inverseFftPointwiseProduct p a b) := by
    unfold inverseFftPointwiseProduct
    dsimp only
    refine Shaped.mk_bind (Shaped.mk_usub _ _ _) fun len => Shaped.mk_bind (Shaped.mk_pow2 _ _) fun pts =>
      Shaped.mk_bind (shaped_fftNew ..) fun m => Shaped.mk_bind' ?_ fun prod hp => shaped_inverse ?_
    · unfold fftPointwiseProduct forward1dFromPoints; shaped
    · unfold fftPointwiseProduct at hp
      obtain ⟨f2, h2, hp⟩ := bind_ok hp
      obtain ⟨f1, h1, hp⟩ := bind_ok hp
      cases hp
      unfold forward1dFromPoints at h1 h2
      obtain ⟨k1, _, h1⟩ := bind_ok h1
      obtain ⟨k2, _, h2⟩ := bind_ok h2
      cases h1; cases h2
      rw [List.length_zipWith, List.length_map, forward1d_len, forward1d_len, Nat.min_self]
  unfold calculateBestLag
  shaped [key, shaped_maxByAbs]

theorem shaped_globallyAlign (p : Profile) (a b : AudioSignal F) : Shaped (globallyAlign p a b) := by
  unfold globallyAlign; shaped [shaped_env, shaped_lag]

theorem shaped_alignTruncate (p : Profile) (a b : AudioSignal F) : Shaped (alignAndTruncate p a b) := by
  unfold alignAndTruncate; shaped [shaped_globallyAlign]

/-- Aligned and cut stretches of the same sample rate have the same length. -/
theorem alignTruncate_len {p : Profile} {ref deg raa daa : AudioSignal F} {lag : F} (hr : ref.sampleRate = deg.sampleRate)
    (h : alignAndTruncate p ref deg = .ok (some (raa, daa, lag))) : raa.data.length = daa.data.length := by
  unfold alignAndTruncate at h
  obtain ⟨x, h1, h⟩ := bind_ok h
  match x, h1, h with
  | none, _, h => cases h
  | some (al, lg), _, h =>
    dsimp only at h
    split at h
    · obtain ⟨r, e1, h⟩ := bind_ok h
      obtain ⟨d, e2, h⟩ := bind_ok h
      cases h
      rw [sliceM_ok_length e1, sliceM_ok_length e2, hr]
    · split at h
      · obtain ⟨r, e1, h⟩ := bind_ok h
        cases h
        rw [sliceM_ok_length e1]; simp only; omega
      · cases h
        show ref.data.length = al.data.length
        omega

theorem shaped_fine {p : Profile} {nb : Nat} {ref deg : AudioSignal F} {w : AnalysisWindow F} (hr : ref.sampleRate = deg.sampleRate) :
    ∀ (rs : List (PatchSim F)) (fb : FilterBank F), Shaped (finelyAlign p nb ref deg w fb rs)
  | [], _ => Shaped.mk_ok _
  | r :: rs, fb => by
    unfold finelyAlign
    refine Shaped.mk_bind ?_ fun x => Shaped.mk_bind (shaped_fine hr rs _) fun _ => Shaped.mk_ok _
    unfold finelyAlignPatch
    split
    · exact Shaped.mk_ok _
    · refine Shaped.mk_bind' (shaped_sliceSignal ..) fun ra era => Shaped.mk_bind' (shaped_sliceSignal ..) fun da eda =>
        Shaped.mk_bind' (shaped_alignTruncate ..) fun o eo => ?_
      split
      · exact Shaped.mk_err _
      · rename_i raa daa lag
        have hlen := alignTruncate_len (by rw [sliceSignal_rate era, sliceSignal_rate eda, hr]) eo
        refine Shaped.mk_bind' shaped_build fun x ex => Shaped.mk_bind' shaped_build fun y ey =>
          Shaped.mk_bind' (shaped_prepare ..) fun z ez => Shaped.mk_bind (shaped_measure p ?_) fun n => by split <;> exact Shaped.mk_ok _
        obtain ⟨fb1, x⟩ := x
        obtain ⟨fb2, y⟩ := y
        obtain ⟨rm, dm⟩ := z
        obtain ⟨_, _, _, e1, _⟩ := buildSpectrogram_ok ex
        obtain ⟨_, _, _, e2, _⟩ := buildSpectrogram_ok ey
        dsimp only at ez ⊢
        rw [e1, e2] at ez
        obtain ⟨_, _, s3, s4, s5, s6⟩ := prepare_shape ez (spectroMat_wf _ _ _ _) (spectroMat_wf _ _ _ _)
        rw [spectroMat_nrows] at s3 s4
        refine ⟨s3.trans s4.symm, ?_⟩
        rw [s5, s6]
        simp [spectroMat, hlen]

theorem globallyAlign_sr {p : Profile} {ref deg al : AudioSignal F} {lag : F} (h : globallyAlign p ref deg = .ok (some (al, lag))) :
    al.sampleRate = deg.sampleRate := by
  unfold globallyAlign at h
  obtain ⟨x, _, h⟩ := bind_ok h
  cases x with
  | none => cases h
  | some r =>
    obtain ⟨y, _, h⟩ := bind_ok h
    cases y with
    | none => cases h
    | some d =>
      obtain ⟨z, _, h⟩ := bind_ok h
      cases z with
      | none => cases h
      | some l =>
        dsimp only at h
        split at h
        · cases h; rfl
        · split at h
          · obtain ⟨d, _, h⟩ := bind_ok h
            cases h; rfl
          · obtain ⟨d, _, h⟩ := bind_ok h
            cases h; rfl

/-- C65: a comparison of two signals of the same sample rate never compares patches of different shapes, nor hands the Fourier transform a
buffer of the wrong length. -/
theorem C65_same_shapes (p : Profile) (m : Manager F) {ref deg : AudioSignal F} (hr : ref.sampleRate = deg.sampleRate) :
    m.computeResults p ref deg ≠ .error (.panic .shape) := by
  refine Shaped.ne ?_
  unfold Manager.computeResults
  refine Shaped.mk_bind' (shaped_globallyAlign ..) fun o eo => ?_
  split
  · exact Shaped.mk_err _
  · rename_i al lag
    have hal := globallyAlign_sr eo
    dsimp only
    refine Shaped.mk_bind ?_ fun x => Shaped.mk_ok _
    unfold calculateSimilarity
    dsimp only
    refine Shaped.mk_bind' shaped_build fun x ex => Shaped.mk_bind' shaped_build fun y ey => Shaped.mk_bind' (shaped_prepare ..) fun z ez => ?_
    obtain ⟨fb1, x⟩ := x
    obtain ⟨fb2, y⟩ := y
    obtain ⟨rm, dm⟩ := z
    obtain ⟨_, _, _, e1, _⟩ := buildSpectrogram_ok ex
    obtain ⟨_, _, _, e2, _⟩ := buildSpectrogram_ok ey
    dsimp only at ez ⊢
    rw [e1, e2] at ez
    obtain ⟨w1, w2, s3, s4, _, _⟩ := prepare_shape ez (spectroMat_wf _ _ _ _) (spectroMat_wf _ _ _ _)
    rw [spectroMat_nrows] at s3 s4
    refine Shaped.mk_bind shaped_indices fun ix => Shaped.mk_bind' (shaped_createPatches _ _ _) fun ps eps => ?_
    obtain ⟨_, c2⟩ := createPatches_ok eps w1
    exact Shaped.mk_bind (shaped_find p ix _ _ w2 fun q hq => ⟨(c2 q hq).2.1.trans (s3.trans s4.symm), (c2 q hq).2.2⟩) fun coarse =>
      Shaped.mk_bind (shaped_fine (by rw [hr, ← hal]; rfl) _ _) fun f =>
      Shaped.mk_bind (shaped_perPatchMean ..) fun _ => Shaped.mk_bind (shaped_perPatchStd ..) fun _ =>
      Shaped.mk_bind (shaped_perPatchMean ..) fun _ => Shaped.mk_bind (shaped_predict ..) fun _ =>
      Shaped.mk_bind (Shaped.mk_expect _) fun _ => Shaped.mk_ok _

/-- C65: nor does any comparison of two files, whatever they hold. -/
theorem C65_same_shapes_files (p : Profile) (world : World F) (m : Manager F) (refPath degPath : String) :
    m.run p world refPath degPath ≠ .error (.panic .shape) := by
  refine Shaped.ne ?_
  unfold Manager.run
  refine Shaped.mk_bind (shaped_load _) fun ref => Shaped.mk_bind (shaped_load _) fun deg => ?_
  refine Shaped.mk_bind' (x := validateInputAudio ref deg) (by unfold validateInputAudio; shaped) fun u hu => ?_
  refine ⟨C65_same_shapes p m ?_⟩
  unfold validateInputAudio at hu
  split at hu
  · cases hu
  · rename_i h; exact not_not.mp h

/-- Matrices of different shapes do fail to combine, and so does a buffer of the wrong length, so these statements exclude something. -/
example : Mat.zip (· * ·) (⟨3, [[1, 2, 3]]⟩ : Mat ℝ) ⟨2, [[1, 2]]⟩ = .error (.panic .shape) := by
  simp [Mat.zip, Mat.nrows]

example (c : Cpx F) : inverse1d ⟨2, 2⟩ [c] = .error (.panic .shape) := by
  simp [inverse1d]

/-- Two signals of the same rate but different lengths meet the hypothesis. -/
example (p : Profile) (m : Manager ℝ) [RustFft ℝ] :
    m.computeResults p ⟨List.replicate 48000 0.5, 48000⟩ ⟨List.replicate 50000 0.25, 48000⟩ ≠ .error (.panic .shape) :=
  C65_same_shapes p m rfl

end

end Visqol
