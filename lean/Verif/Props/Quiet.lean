import Verif.Props.Pipeline
import Verif.Props.Options

/-! # Very quiet signals (C78) -/

set_option linter.unusedSectionVars false

namespace Visqol
open Spec

/-! ## Levels below the floor -/

/-- The level 10^-4.5, at and below which a band counts as -45 dB. -/
noncomputable def quietLevel : ℝ := (10 : ℝ) ^ (-4.5 : ℝ)

theorem raised_quiet {x : ℝ} (h0 : 0 ≤ x) (h : x ≤ quietLevel) : raised x = -45 := by
  unfold raised decibels
  refine max_eq_left ?_
  have key : ∀ y : ℝ, 0 < y → y ≤ quietLevel → 10 * Real.logb 10 y ≤ -45 := by
    intro y hy hle
    have : Real.logb 10 y ≤ Real.logb 10 quietLevel := Real.logb_le_logb_of_le (by norm_num) hy hle
    unfold quietLevel at this
    rw [Real.logb_rpow (by norm_num) (by norm_num)] at this
    linarith
  split
  · refine key _ (by positivity) ?_
    have : (10 : ℝ) ^ (-5 : ℝ) ≤ quietLevel := Real.rpow_le_rpow_of_exponent_le (by norm_num) (by norm_num)
    refine le_trans ?_ this
    rw [show (-5 : ℝ) = ((-5 : ℤ) : ℝ) by norm_num, Real.rpow_intCast]
    norm_num
  · rename_i hx
    rw [abs_of_nonneg h0]
    exact key x (lt_of_le_of_ne h0 (Ne.symm hx)) h

/-- If no level of two spectrograms is above the floor, preparation leaves nothing of them. -/
theorem prepare_quiet {ref deg a b : Mat ℝ} (wr : ref.WF) (wd : deg.WF) (h : prepareSpectrograms ref deg = .ok (a, b))
    (hr : ∀ i < ref.nrows, ∀ j < ref.ncols, raised (ref.at i j) = -45)
    (hd : ∀ i < deg.nrows, ∀ j < deg.ncols, raised (deg.at i j) = -45) :
    (∀ i < a.nrows, ∀ j < a.ncols, a.at i j = 0) ∧ ∀ i < b.nrows, ∀ j < b.ncols, b.at i j = 0 := by
  obtain ⟨_, _, n1, n2, n3, n4, peak, lowest, fr, fd, k1, k2, k3, k4, k5, k6⟩ := C23_formula wr wd h
  have hpk : ∀ j, j < ref.ncols → j < deg.ncols → peak j = -45 := by
    intro j h1 h2
    rcases (k1 j h1 h2).1 with ⟨i, hi, e⟩ | ⟨i, hi, e⟩
    · rw [e, hr i hi j h1]
    · rw [e, hd i hi j h2]
  have f1 : ∀ i < ref.nrows, ∀ j < ref.ncols, fr i j = -45 := by
    intro i hi j hj
    rw [k2, hr i hi j hj]
    split
    · rename_i hc; rw [hpk j hc.2 hc.1]; norm_num
    · rfl
  have f2 : ∀ i < deg.nrows, ∀ j < deg.ncols, fd i j = -45 := by
    intro i hi j hj
    rw [k3, hd i hi j hj]
    split
    · rename_i hc; rw [hpk j hc.2 hc.1]; norm_num
    · rfl
  have hl : lowest = -45 := by
    rcases k4.1 with ⟨i, hi, j, hj, e⟩ | ⟨i, hi, j, hj, e⟩
    · rw [e, f1 i hi j hj]
    · rw [e, f2 i hi j hj]
  refine ⟨fun i hi j hj => ?_, fun i hi j hj => ?_⟩
  · rw [n1] at hi; rw [n2] at hj
    rw [k5 i hi j hj, f1 i hi j hj, hl]; ring
  · rw [n3] at hi; rw [n4] at hj
    rw [k6 i hi j hj, f2 i hi j hj, hl]; ring

theorem mat_zero {a : Mat ℝ} (wf : a.WF) (h : ∀ i < a.nrows, ∀ j < a.ncols, a.at i j = 0) :
    a = ⟨a.ncols, List.replicate a.nrows (List.replicate a.ncols 0)⟩ := by
  obtain ⟨c, rows⟩ := a
  congr 1
  rw [List.eq_replicate_iff]
  refine ⟨rfl, fun r hr => ?_⟩
  rw [List.eq_replicate_iff]
  refine ⟨wf r hr, fun x hx => ?_⟩
  obtain ⟨i, hi, rfl⟩ := List.getElem_of_mem hr
  obtain ⟨j, hj, rfl⟩ := List.getElem_of_mem hx
  have hl := wf _ (List.getElem_mem hi)
  have := h i hi j (by simpa [hl] using hj)
  simpa [Mat.at, List.getD_eq_getElem?_getD, hi, hj] using this

section stages
variable {p : Profile} {nb : Nat} {fb : FilterBank ℝ} {ref deg : AudioSignal ℝ} {w : AnalysisWindow ℝ}
  {pc : PatchCreator} {mapper : QualityMapper ℝ} {sw : Nat} {res : SimilarityResult ℝ}

/-- With prepared spectrograms of zeros every patch is similar to every stretch. -/
theorem Stages.zero_sims (st : Stages p nb fb ref deg w pc mapper sw res)
    (hr : ∀ i < st.refM.nrows, ∀ j < st.refM.ncols, st.refM.at i j = 0)
    (hd : ∀ i < st.degM.nrows, ∀ j < st.degM.ncols, st.degM.at i j = 0) :
    ∀ q ∈ st.patches, ∀ o x, measurePatchSimilarity p q (st.degM.window o pc.patchSize) = .ok x → x.similarity = 1 := by
  intro q hq o x hx
  obtain ⟨w1, w2, s1, s2, _, _⟩ := st.shapes
  obtain ⟨c1, c2⟩ := createPatches_ok st.created w1
  obtain ⟨q1, q2, q3⟩ := c2 q hq
  obtain ⟨e1, e2, e3⟩ := window_wf st.degM o pc.patchSize
  have hz : q = st.degM.window o pc.patchSize := by
    rw [mat_zero q1 ?_, mat_zero e1 ?_, q2, q3, e2, e3, s1, s2]
    · intro i hi j hj
      rw [e2] at hi; rw [e3] at hj
      rw [window_at w2 hi hj]
      split
      · rename_i hc; exact hd i hi _ hc
      · rfl
    · intro i hi j hj
      obtain ⟨k, hk⟩ := List.getElem?_of_mem hq
      have hkl := (List.getElem?_eq_some_iff.mp hk).1
      have hik : st.ix[k]? = some (st.ix[k]'(by omega)) := List.getElem?_eq_getElem _
      obtain ⟨b, h1, h2⟩ := mapE_ok_get st.created hik
      rw [hk] at h2
      cases h2
      rw [q2] at hi
      rw [q3] at hj
      have hfit := (createPatches_get st.created hik).2
      rw [sliceCols_at w1 h1 hi (by omega)]
      exact hr i hi _ (by omega)
  obtain ⟨_, n1, n2⟩ := measure_ok_inv hx
  rw [← hz] at hx
  obtain ⟨r, r1, _, _, r4⟩ := C08_nsim_self p q q1 n1 n2
  rw [r1] at hx
  cases hx
  exact r4

/-- A comparison whose prepared spectrograms are zero is perfect. -/
theorem Stages.zero_perfect (st : Stages p nb fb ref deg w pc mapper sw res) (hpc : pc = .vad 30 ∨ pc = .image 20)
    (hlen : ref.data.length + 30 * sw < 2147483647) (hlend : deg.data.length ≤ 2 ^ 62) (hlong : ref.data.length ≤ deg.data.length)
    (hr : ∀ i < st.refM.nrows, ∀ j < st.refM.ncols, st.refM.at i j = 0)
    (hd : ∀ i < st.degM.nrows, ∀ j < st.degM.ncols, st.degM.at i j = 0) :
    ∀ r ∈ res.patchSims, r.similarity = 1 ∧ (∀ x ∈ r.freqBandMeans, x = 1) ∧ ∀ x ∈ r.freqBandStddevs, x = 0 := by
  have hz := st.zero_sims hr hd
  obtain ⟨w1, w2, s1, s2, s3, s4⟩ := st.shapes
  obtain ⟨hs, h30⟩ := st.sorted_ix hpc (by omega)
  have hpp : 0 < pc.patchSize ∧ pc.patchSize ≤ 30 := by rcases hpc with rfl | rfl <;> decide
  obtain ⟨c1, c2⟩ := createPatches_ok st.created w1
  have hcols := @numColumns_le ref.data.length w.size w.hop
  have hcolsd := @numColumns_le deg.data.length w.size w.hop
  have hmono := @numColumns_mono w.size w.hop _ _ hlong
  have hfound := st.found
  rw [wrapI32_of_mem (by omega) (by omega)] at hfound
  have hin : ∀ i ∈ st.ix, i + pc.patchSize ≤ st.refM.ncols := by
    intro i hi
    obtain ⟨k, hk⟩ := List.getElem?_of_mem hi
    exact (createPatches_get st.created hk).2
  have hmul : sw * pc.patchSize ≤ 30 * sw := by rw [Nat.mul_comm]; exact Nat.mul_le_mul_right _ hpp.2
  have hixl : st.ix.length ≤ st.refM.ncols + 1 := by
    have hnd : st.ix.Nodup := hs.imp (fun h => Nat.ne_of_lt h)
    have hsub : st.ix.Subperm (List.range (st.refM.ncols + 1)) :=
      List.subperm_of_subset hnd fun i hi => List.mem_range.mpr (by have := hin i hi; omega)
    simpa using hsub.length_le
  have key := perfect_find (nb := nb) hfound c1 (fun q hq => ⟨(c2 q hq).1, (c2 q hq).2.1.trans s1, (c2 q hq).2.2⟩) w2 (by omega) (by omega)
    (by omega) (by omega) (fun i hi => by
      have := hin i hi
      have e : ((sw : Int) * (pc.patchSize : Int)) = ((sw * pc.patchSize : Nat) : Int) := by push_cast; rfl
      rw [e]
      omega) hs (fun i hi => by have := hin i hi; omega) (fun k m i hm _ q hq => hz m (List.mem_of_getElem? hm) i q hq)
  refine st.fine_ones fun r hr' => ?_
  obtain ⟨k, hk⟩ := List.getElem?_of_mem hr'
  exact (key k r hk).1

end stages

/-! ## How large the levels of a quiet signal can be -/

theorem abs_sampleAt_le {s : List ℝ} {M : ℝ} (hM : 0 ≤ M) (h : ∀ v ∈ s, |v| ≤ M) (k : ℤ) : |sampleAt s k| ≤ M := by
  unfold sampleAt
  split
  · rw [List.getD_eq_getElem?_getD]
    cases e : s[k.toNat]? with
    | none => simpa using hM
    | some v => exact h v (List.mem_of_getElem? e)
  · simpa using hM

/-- The output of a section is bounded by a multiple of the largest input sample; the multiple depends on the length. -/
theorem IsBiquad.bounded {b0 b1 b2 a1 a2 M : ℝ} {x y : List ℝ} (h : IsBiquad b0 b1 b2 a1 a2 x y) (hM : 0 ≤ M)
    (hx : ∀ v ∈ x, |v| ≤ M) : ∀ v ∈ y, |v| ≤ (|b0| + |b1| + |b2|) * (1 + |a1| + |a2|) ^ x.length * M := by
  have hx' := abs_sampleAt_le hM hx
  have hA : 0 ≤ |a1| + |a2| := by positivity
  generalize hB : |b0| + |b1| + |b2| = B
  have hB0 : 0 ≤ B := by rw [← hB]; positivity
  have key : ∀ n : ℕ, ∀ k : ℤ, k < n → k < x.length → |sampleAt y k| ≤ B * (1 + |a1| + |a2|) ^ n * M := by
    intro n
    induction n with
    | zero =>
      intro k hk _
      rw [sampleAt_neg (by omega), abs_zero]; positivity
    | succ n ih =>
      intro k hk hkx
      by_cases hk0 : k < 0
      · rw [sampleAt_neg hk0, abs_zero]; positivity
      · rw [h.2 k (by omega) hkx]
        have i1 := ih (k - 1) (by omega) (by omega)
        have i2 := ih (k - 2) (by omega) (by omega)
        generalize hT : B * (1 + |a1| + |a2|) ^ n * M = T at i1 i2
        have hq : 1 ≤ (1 + |a1| + |a2|) ^ n := one_le_pow₀ (by linarith)
        have hBT : B * M ≤ T := by
          rw [← hT]
          have := mul_le_mul_of_nonneg_left hq hB0
          have := mul_le_mul_of_nonneg_right this hM
          linarith
        have e : B * (1 + |a1| + |a2|) ^ (n + 1) * M = T + (|a1| + |a2|) * T := by rw [← hT]; ring
        rw [e]
        have m0 := mul_le_mul_of_nonneg_left (hx' k) (abs_nonneg b0)
        have m1 := mul_le_mul_of_nonneg_left (hx' (k - 1)) (abs_nonneg b1)
        have m2 := mul_le_mul_of_nonneg_left (hx' (k - 2)) (abs_nonneg b2)
        have m3 := mul_le_mul_of_nonneg_left i1 (abs_nonneg a1)
        have m4 := mul_le_mul_of_nonneg_left i2 (abs_nonneg a2)
        rw [← abs_mul] at m0 m1 m2 m3 m4
        have t0 : B * M = |b0| * M + |b1| * M + |b2| * M := by rw [← hB]; ring
        have l0 := abs_le.mp m0
        have l1 := abs_le.mp m1
        have l2 := abs_le.mp m2
        have l3 := abs_le.mp m3
        have l4 := abs_le.mp m4
        rw [abs_le]
        constructor <;> nlinarith [l0.1, l0.2, l1.1, l1.2, l2.1, l2.2, l3.1, l3.2, l4.1, l4.2]
  intro v hv
  obtain ⟨i, hi, rfl⟩ := List.getElem_of_mem hv
  have hi' : i < x.length := by rw [← h.1]; exact hi
  have := key x.length i (by omega) (by omega)
  simpa [sampleAt, List.getD_eq_getElem?_getD, hi] using this

theorem rms_le {l : List ℝ} {M : ℝ} (hM : 0 ≤ M) (h : ∀ v ∈ l, |v| ≤ M) : rms l ≤ M := by
  unfold rms
  apply Real.sqrt_le_iff.mpr ⟨hM, ?_⟩
  have hs : (l.map fun x => x ^ 2).sum ≤ l.length * M ^ 2 := by
    have := List.sum_le_card_nsmul (l.map fun x => x ^ 2) (M ^ 2) (fun y hy => by
      obtain ⟨x, hx, rfl⟩ := List.mem_map.mp hy
      rw [← sq_abs x]
      exact pow_le_pow_left₀ (abs_nonneg _) (h x hx) 2)
    simpa using this
  rcases Nat.eq_zero_or_pos l.length with h0 | h0
  · rw [h0, Nat.cast_zero, div_zero]; positivity
  · have : (0 : ℝ) < l.length := by exact_mod_cast h0
    rw [div_le_iff₀ this]; linarith

theorem IsSection.bounded (sr : ℕ) (f s g : ℝ) (n : ℕ) : ∃ C : ℝ, 0 ≤ C ∧ ∀ x y M, IsSection sr f s g x y → x.length = n → 0 ≤ M →
    (∀ v ∈ x, |v| ≤ M) → y.length = n ∧ ∀ v ∈ y, |v| ≤ C * M := by
  refine ⟨(|1 / sr / g| + |-(1 / sr * zeroAt sr f s) / g| + |0|) *
    (1 + |-2 * poleRadius sr f * Real.cos (radians sr f)| + |poleRadius sr f ^ 2|) ^ n, by positivity, ?_⟩
  intro x y M h hl hM hx
  refine ⟨h.1.trans hl, ?_⟩
  rw [← hl]
  exact IsBiquad.bounded h hM hx

theorem IsLevel.bounded (sr : ℕ) (f : ℝ) (n : ℕ) : ∃ C : ℝ, 0 ≤ C ∧ ∀ x e M, IsLevel sr f x e → x.length = n → 0 ≤ M →
    (∀ v ∈ x, |v| ≤ M) → 0 ≤ e ∧ e ≤ C * M := by
  obtain ⟨C1, p1, h1⟩ := IsSection.bounded sr f (Real.sqrt (3 + 2 ^ (1.5 : ℝ))) ‖response sr f (Real.sqrt (3 + 2 ^ (1.5 : ℝ))) *
    response sr f (-Real.sqrt (3 + 2 ^ (1.5 : ℝ))) * response sr f (Real.sqrt (3 - 2 ^ (1.5 : ℝ))) *
    response sr f (-Real.sqrt (3 - 2 ^ (1.5 : ℝ)))‖ n
  obtain ⟨C2, p2, h2⟩ := IsSection.bounded sr f (-Real.sqrt (3 + 2 ^ (1.5 : ℝ))) 1 n
  obtain ⟨C3, p3, h3⟩ := IsSection.bounded sr f (Real.sqrt (3 - 2 ^ (1.5 : ℝ))) 1 n
  obtain ⟨C4, p4, h4⟩ := IsSection.bounded sr f (-Real.sqrt (3 - 2 ^ (1.5 : ℝ))) 1 n
  refine ⟨C4 * (C3 * (C2 * C1)), by positivity, ?_⟩
  rintro x e M ⟨y1, y2, y3, y4, k1, k2, k3, k4, rfl⟩ hl hM hx
  obtain ⟨l1, b1⟩ := h1 x y1 M k1 hl hM hx
  obtain ⟨l2, b2⟩ := h2 y1 y2 _ k2 l1 (by positivity) b1
  obtain ⟨l3, b3⟩ := h3 y2 y3 _ k3 l2 (by positivity) b2
  obtain ⟨l4, b4⟩ := h4 y3 y4 _ k4 l3 (by positivity) b3
  refine ⟨Real.sqrt_nonneg _, ?_⟩
  have := rms_le (by positivity) b4
  linarith

theorem erbNumber_inj {f g : ℝ} (hf : 0 < f) (hg : 0 < g) (h : erbNumber f = erbNumber g) : f = g := by
  unfold erbNumber at h
  have h1 := mul_left_cancel₀ (by norm_num) h
  have h2 := Real.log_injOn_pos (Set.mem_Ioi.mpr (by positivity)) (Set.mem_Ioi.mpr (by positivity)) h1
  have h3 := add_left_cancel h2
  field_simp at h3
  linarith

/-- The levels in a spectrogram are bounded by a multiple of the largest sample. -/
theorem IsSpectrogram.bounded (nb sr : ℕ) (lo hi : ℝ) (W hop : ℕ) : ∃ C : ℝ, 0 < C ∧ ∀ x S M cols, IsSpectrogram nb sr lo hi W hop cols x S →
    0 ≤ M → (∀ v ∈ x, |v| ≤ M) → ∀ b < nb, ∀ j < cols, 0 ≤ S b j ∧ S b j ≤ C * M := by
  have hb : ∀ b : ℕ, ∃ C : ℝ, 0 ≤ C ∧ ∀ f, 0 < f → erbNumber f = erbNumber lo + b / nb * (erbNumber hi - erbNumber lo) →
      ∀ x e M, IsLevel sr f x e → x.length = W → 0 ≤ M → (∀ v ∈ x, |v| ≤ M) → 0 ≤ e ∧ e ≤ C * M := by
    intro b
    by_cases hf : ∃ f, 0 < f ∧ erbNumber f = erbNumber lo + b / nb * (erbNumber hi - erbNumber lo)
    · obtain ⟨f, f1, f2⟩ := hf
      obtain ⟨C, c1, c2⟩ := IsLevel.bounded sr f W
      refine ⟨C, c1, fun g g1 g2 => ?_⟩
      rw [erbNumber_inj g1 f1 (g2.trans f2.symm)]
      exact c2
    · exact ⟨0, le_rfl, fun f f1 f2 => absurd ⟨f, f1, f2⟩ hf⟩
  choose C c1 c2 using hb
  refine ⟨1 + ∑ b ∈ Finset.range nb, C b, ?_, ?_⟩
  · have := Finset.sum_nonneg (s := Finset.range nb) (fun b _ => c1 b)
    linarith
  · intro x S M cols hS hM hx b hb j hj
    obtain ⟨f, f1, f2, f3⟩ := hS b hb
    have hcut : ∀ v ∈ cut x (j * hop) (j * hop + W), |v| ≤ M := by
      intro v hv
      obtain ⟨k, _, rfl⟩ := List.mem_map.mp hv
      rw [List.getD_eq_getElem?_getD]
      cases e : x[j * hop + k]? with
      | none => simpa using hM
      | some y => exact hx y (List.mem_of_getElem? e)
    obtain ⟨q1, q2⟩ := c2 b f f1 f2 _ _ M (f3 j hj) (by simp [cut]) hM hcut
    refine ⟨q1, q2.trans (mul_le_mul_of_nonneg_right ?_ hM)⟩
    have := Finset.single_le_sum (f := C) (fun b _ => c1 b) (Finset.mem_range.mpr hb)
    linarith

/-! ## The property -/

/-- No level of the spectrogram of `x` is above 10^-4.5. -/
def Inaudible (nb sr : ℕ) (x : List ℝ) : Prop :=
  ∀ S, IsSpectrogram nb sr 50 (upperLimit nb sr) (windowSamples sr) (windowSamples sr / 4) (columnCount sr x.length) x S →
    ∀ b < nb, ∀ j < columnCount sr x.length, S b j ≤ (10 : ℝ) ^ (-4.5 : ℝ)

theorem inaudible_raised {nb : ℕ} {s : AudioSignal ℝ} {w : AnalysisWindow ℝ} (hW : w.size = windowSamples s.sampleRate)
    (hH : w.hop = windowSamples s.sampleRate / 4) (hw : w.size ≤ s.data.length) (hh : 0 < w.hop) (hs : 0 < w.size)
    (hl : 50 < upperLimit nb s.sampleRate) (h : Inaudible nb s.sampleRate s.data) :
    ∀ i < (spectroMat nb 50 s w).nrows, ∀ j < (spectroMat nb 50 s w).ncols, raised ((spectroMat nb 50 s w).at i j) = -45 := by
  intro i hi j hj
  rw [spectroMat_nrows] at hi
  have hsp := isSpectrogram (nb := nb) hw hh hs (by norm_num) hl
  have hj' : j < numColumns s.data.length w.size w.hop := hj
  obtain ⟨C, _, hC⟩ := IsSpectrogram.bounded nb s.sampleRate 50 (upperLimit nb s.sampleRate) w.size w.hop
  have h0 := hC s.data _ ((s.data.map fun x => |x|).sum) _ hsp (List.sum_nonneg (by simp)) (fun v hv =>
    List.single_le_sum (by simp) _ (List.mem_map.mpr ⟨v, hv, rfl⟩)) i hi j hj'
  refine raised_quiet h0.1 ?_
  rw [hW, hH] at hsp hj'
  rw [← columnCount_eq] at hsp hj'
  exact h _ hsp i hi j hj'

/-- The aligned degraded signal is a shift of the degraded signal by at most half the reference. -/
theorem aligned_shift {p : Profile} {ref deg al : AudioSignal ℝ} {t : ℝ} (h : globallyAlign p ref deg = .ok (some (al, t))) :
    al.sampleRate = deg.sampleRate ∧ ∃ z : ℤ, z.natAbs ≤ ref.data.length / 2 ∧ al.data = shift z deg.data := by
  obtain ⟨h1, h2⟩ := C39_only_shifts h
  refine ⟨h1, ?_⟩
  rcases h2 with ⟨h2, _⟩ | ⟨z, _, h3, _, ⟨h4, _, h5⟩ | ⟨h4, h5⟩⟩
  · exact ⟨0, by simp, by simp [shift, h2]⟩
  · refine ⟨z, h3, ?_⟩
    rw [h5]; unfold shift
    rw [show z.toNat = 0 by omega, show (-z).toNat = z.natAbs by omega]; simp
  · refine ⟨z, h3, ?_⟩
    rw [h5]; unfold shift
    rw [show z.toNat = z.natAbs by omega, show (-z).toNat = 0 by omega, real_lit0]; simp

/-- In such comparisons nothing is left after preparation. -/
theorem inaudible_zero {p : Profile} {world : World ℝ} {nb k : Nat} {v : Variant} {m₀ m : Manager ℝ}
    {ref deg : AudioSignal ℝ} {res : SimilarityResult ℝ} (hm : Manager.new world nb v k = .ok m₀) (ha : After p m₀ m)
    (hsr : ref.sampleRate = deg.sampleRate) (h50 : 50 ≤ ref.sampleRate) (hu32 : ref.sampleRate < 4294967296)
    (hlim : 50 < upperLimit nb ref.sampleRate)
    (hlen : ref.data.length + 30 * k < 2147483647) (hlend : deg.data.length ≤ 2 ^ 61)
    (hlong : ref.data.length + ref.data.length / 2 ≤ deg.data.length)
    (hr0 : ∃ x ∈ ref.data, x ≠ 0) (hd0 : ∃ i, ref.data.length / 2 ≤ i ∧ deg.data.getD i 0 ≠ 0)
    (hr : Inaudible nb ref.sampleRate ref.data)
    (hd : ∀ (z : ℤ) (g : ℝ), 0 < g → z.natAbs ≤ ref.data.length / 2 → rms ((shift z deg.data).map (g * ·)) = rms ref.data →
      Inaudible nb ref.sampleRate ((shift z deg.data).map (g * ·)))
    {al : AudioSignal ℝ} {lag : ℝ} (hal : globallyAlign p ref deg = .ok (some (al, lag)))
    (st : Stages p m.numBands m.filterBank ref al (AnalysisWindow.mk' ref.sampleRate 0.25 0.08) m.patchCreator m.mapper m.searchWindow res) :
    ref.data.length ≤ al.data.length ∧ (∀ i < st.refM.nrows, ∀ j < st.refM.ncols, st.refM.at i j = 0) ∧
      ∀ i < st.degM.nrows, ∀ j < st.degM.ncols, st.degM.at i j = 0 := by
  obtain ⟨h1, h2, h3, _, _⟩ := new_mapper hm
  have hs := ha.sim
  have hnb : m.numBands = nb := hs.1.trans h1
  have hmf : m.filterBank.minFreq = 50 := by
    have e : m₀.filterBank.minFreq = 50 := by
      unfold Manager.new at hm
      have e50 : (50.0 : ℝ) = 50 := by simp only [real_sci]; norm_num
      cases v with
      | wideband u => cases hm; exact e50
      | fullband path =>
        obtain ⟨_, _, hm⟩ := bind_ok hm
        cases hm; exact e50
    exact hs.2.2.2.2.trans e
  subst hnb
  obtain ⟨e1, z, e2, e3⟩ := aligned_shift hal
  obtain ⟨w1, w2, w3⟩ := window_facts h50 hu32
  have hall : ref.data.length ≤ al.data.length := by
    rw [e3]; unfold shift
    rw [List.length_append, List.length_replicate, List.length_drop]; omega
  have hsound : ∃ x ∈ al.data, x ≠ 0 := by
    obtain ⟨i, i1, i2⟩ := hd0
    rw [List.getD_eq_getElem?_getD] at i2
    cases e : deg.data[i]? with
    | none => rw [e] at i2; simp at i2
    | some y =>
      rw [e] at i2
      refine ⟨y, ?_, i2⟩
      rw [e3]; unfold shift
      refine List.mem_append_right _ (List.mem_of_getElem? (i := i - (-z).toNat) ?_)
      rw [List.getElem?_drop, ← e]
      congr 1; omega
  obtain ⟨s1, s2, ⟨g, hg, s3⟩, s4⟩ := C13_level_matching ref al hr0 hsound
  have hq1 := inaudible_raised w1 w2 st.hsr st.hhop st.hsize hlim hr
  have hsd := st.hsd
  have hq2 := inaudible_raised (nb := m.numBands) (s := scaleToMatchSpl ref al) (w := AnalysisWindow.mk' ref.sampleRate 0.25 0.08)
    (by rw [s2, e1, ← hsr]; exact w1) (by rw [s2, e1, ← hsr]; exact w2) (by rw [s1]; exact hsd) st.hhop st.hsize
    (by rw [s2, e1, ← hsr]; exact hlim) (by
      rw [s2, e1, ← hsr, s3, e3]
      refine hd z g hg e2 ?_
      rw [← e3, ← s3, s4])
  have hprep := st.prep
  rw [st.minFreq1, hmf] at hprep
  exact ⟨hall, prepare_quiet (spectroMat_wf _ _ _ _) (spectroMat_wf _ _ _ _) hprep hq1 hq2⟩

/-- C78: if neither in the reference nor in the aligned and level-matched degraded signal any band ever has a level above
10^-4.5, then any result is perfect, however different the signals are. -/
theorem C78_inaudible {p : Profile} {world : World ℝ} {nb k : Nat} {v : Variant} {m₀ m m' : Manager ℝ}
    {ref deg : AudioSignal ℝ} {res : SimilarityResult ℝ} (hm : Manager.new world nb v k = .ok m₀) (ha : After p m₀ m)
    (hsr : ref.sampleRate = deg.sampleRate) (h50 : 50 ≤ ref.sampleRate) (hu32 : ref.sampleRate < 4294967296)
    (hlim : 50 < upperLimit nb ref.sampleRate)
    (hlen : ref.data.length + 30 * k < 2147483647) (hlend : deg.data.length ≤ 2 ^ 61)
    (hlong : ref.data.length + ref.data.length / 2 ≤ deg.data.length)
    (hr0 : ∃ x ∈ ref.data, x ≠ 0) (hd0 : ∃ i, ref.data.length / 2 ≤ i ∧ deg.data.getD i 0 ≠ 0)
    (hr : Inaudible nb ref.sampleRate ref.data)
    (hd : ∀ (z : ℤ) (g : ℝ), 0 < g → z.natAbs ≤ ref.data.length / 2 → rms ((shift z deg.data).map (g * ·)) = rms ref.data →
      Inaudible nb ref.sampleRate ((shift z deg.data).map (g * ·)))
    (h : m.computeResults p ref deg = .ok (m', res)) :
    (∀ q ∈ res.patchSims, q.similarity = 1 ∧ (∀ x ∈ q.freqBandMeans, x = 1) ∧ ∀ x ∈ q.freqBandStddevs, x = 0) ∧
    (∀ x ∈ res.fvnsim, x = 1) ∧ res.vnsim = 1 ∧ ∀ x ∈ res.fstdnsim, x = 0 := by
  suffices hq : ∀ q ∈ res.patchSims, q.similarity = 1 ∧ (∀ x ∈ q.freqBandMeans, x = 1) ∧ ∀ x ∈ q.freqBandStddevs, x = 0 by
    obtain ⟨f1, f2, f3⟩ := scores_of_ones h hq
    exact ⟨hq, f1, f2, f3⟩
  obtain ⟨_, h2, h3, _, _⟩ := new_mapper hm
  have hs := ha.sim
  have hk : m.searchWindow = k := hs.2.1.trans h2
  have hpc : m.patchCreator = .vad 30 ∨ m.patchCreator = .image 20 := by
    rw [hs.2.2.1, h3]; cases v <;> simp
  obtain ⟨al, lag, hal, ⟨st⟩⟩ := computeResults_stages h
  obtain ⟨hall, q1, q2⟩ := inaudible_zero hm ha hsr h50 hu32 hlim hlen hlend hlong hr0 hd0 hr hd hal st
  have hlal := globallyAlign_length hal
  exact st.zero_perfect hpc (by rw [hk]; exact hlen) (by omega) hall q1 q2

theorem abs_le_rms {l : List ℝ} {x : ℝ} (hx : x ∈ l) : |x| ≤ (l.length + 1) * rms l := by
  have hl : 0 < l.length := List.length_pos_of_mem hx
  have hl' : (1 : ℝ) ≤ l.length := by exact_mod_cast hl
  have h1 : x ^ 2 ≤ (l.map fun x => x ^ 2).sum := List.single_le_sum (fun y hy => by
    obtain ⟨z, _, rfl⟩ := List.mem_map.mp hy
    exact sq_nonneg z) _ (List.mem_map.mpr ⟨x, hx, rfl⟩)
  have h2 : rms l ^ 2 = (l.map fun x => x ^ 2).sum / l.length := Real.sq_sqrt (div_nonneg (by linarith [sq_nonneg x]) (by linarith))
  have h3 : 0 ≤ rms l := Real.sqrt_nonneg _
  have h4 : (l.map fun x => x ^ 2).sum = l.length * rms l ^ 2 := by rw [h2]; field_simp
  apply abs_le_of_sq_le_sq _ (by positivity)
  rw [mul_pow]
  have : (l.length : ℝ) * rms l ^ 2 ≤ (l.length + 1) ^ 2 * rms l ^ 2 := mul_le_mul_of_nonneg_right (by nlinarith) (by positivity)
  linarith

/-- How quiet is quiet enough. -/
theorem quiet_enough (nb sr N : ℕ) : ∃ ε : ℝ, 0 < ε ∧ ∀ ref deg : AudioSignal ℝ, deg.data.length ≤ N →
    ref.data.length + ref.data.length / 2 ≤ deg.data.length → (∀ x ∈ ref.data, |x| ≤ ε) → Inaudible nb sr ref.data ∧
    ∀ (z : ℤ) (g : ℝ), 0 < g → z.natAbs ≤ ref.data.length / 2 → rms ((shift z deg.data).map (g * ·)) = rms ref.data →
      Inaudible nb sr ((shift z deg.data).map (g * ·)) := by
  obtain ⟨C, c0, hC⟩ := IsSpectrogram.bounded nb sr 50 (upperLimit nb sr) (windowSamples sr) (windowSamples sr / 4)
  have hq : 0 < (10 : ℝ) ^ (-4.5 : ℝ) := by positivity
  refine ⟨(10 : ℝ) ^ (-4.5 : ℝ) / (C * (2 * N + 1)), by positivity, ?_⟩
  intro ref deg hN hlong hquiet
  generalize hε : (10 : ℝ) ^ (-4.5 : ℝ) / (C * (2 * N + 1)) = ε at hquiet
  have hε0 : 0 ≤ ε := by rw [← hε]; positivity
  have hCε : C * ((2 * N + 1) * ε) = (10 : ℝ) ^ (-4.5 : ℝ) := by rw [← hε]; field_simp
  have hin : ∀ x : List ℝ, (∀ v ∈ x, |v| ≤ (2 * N + 1) * ε) → Inaudible nb sr x := by
    intro x hx S hS b hb j hj
    rw [← hCε]
    exact (hC x S _ _ hS (by positivity) hx b hb j hj).2
  refine ⟨hin _ fun x hx => ?_, fun z g hg hz hrms => hin _ fun x hx => ?_⟩
  · refine (hquiet x hx).trans ?_
    have : 0 ≤ (N : ℝ) * ε := by positivity
    linarith
  · refine (abs_le_rms hx).trans ?_
    rw [hrms]
    have hl : ((shift z deg.data).map (g * ·)).length ≤ 2 * N := by
      unfold shift
      rw [List.length_map, List.length_append, List.length_replicate, List.length_drop]; omega
    have hl' : ((((shift z deg.data).map (g * ·)).length : ℕ) : ℝ) ≤ 2 * N := by exact_mod_cast hl
    exact mul_le_mul (by linarith) (rms_le hε0 hquiet) (Real.sqrt_nonneg _) (by positivity)

/-- C78: for every number of bands, sample rate and greatest length there is an amplitude such that a reference that nowhere
exceeds it gets a perfect result with any degraded signal that is long enough and not silent. -/
theorem C78_quiet (nb sr N : ℕ) (h50 : 50 ≤ sr) (hu32 : sr < 4294967296) (hlim : 50 < upperLimit nb sr) :
    ∃ ε : ℝ, 0 < ε ∧ ∀ {p : Profile} {world : World ℝ} {k : Nat} {v : Variant} {m₀ m m' : Manager ℝ}
      {ref deg : AudioSignal ℝ} {res : SimilarityResult ℝ}, Manager.new world nb v k = .ok m₀ → After p m₀ m →
      ref.sampleRate = sr → deg.sampleRate = sr → ref.data.length + 30 * k < 2147483647 → deg.data.length ≤ N → N ≤ 2 ^ 61 →
      ref.data.length + ref.data.length / 2 ≤ deg.data.length → (∃ x ∈ ref.data, x ≠ 0) → (∀ x ∈ ref.data, |x| ≤ ε) →
      (∃ i, ref.data.length / 2 ≤ i ∧ deg.data.getD i 0 ≠ 0) → m.computeResults p ref deg = .ok (m', res) →
      (∀ q ∈ res.patchSims, q.similarity = 1 ∧ (∀ x ∈ q.freqBandMeans, x = 1) ∧ ∀ x ∈ q.freqBandStddevs, x = 0) ∧
      (∀ x ∈ res.fvnsim, x = 1) ∧ res.vnsim = 1 ∧ ∀ x ∈ res.fstdnsim, x = 0 := by
  obtain ⟨ε, hε, key⟩ := quiet_enough nb sr N
  refine ⟨ε, hε, ?_⟩
  intro p world k v m₀ m m' ref deg res hm ha hsr hsd hlen hN hN2 hlong hr0 hquiet hd0 h
  obtain ⟨k1, k2⟩ := key ref deg hN hlong hquiet
  subst hsr
  exact C78_inaudible hm ha hsd.symm h50 hu32 hlim hlen (hN.trans hN2) hlong hr0 hd0 k1 k2 h

/-! ## These situations exist -/

/-- A loud degraded signal that changes sign half way. -/
def stepSignal (n : Nat) : AudioSignal ℝ := ⟨(List.range n).map fun i => if 2 * i < n then 1 else -1, 16000⟩
/-- A constant reference. -/
def faintSignal (n : Nat) (ε : ℝ) : AudioSignal ℝ := ⟨List.replicate n ε, 16000⟩

theorem step_length (n : Nat) : (stepSignal n).data.length = n := by simp [stepSignal]
theorem step_rate (n : Nat) : (stepSignal n).sampleRate = 16000 := rfl
theorem step_get {n i : Nat} (h : i < n) : (stepSignal n).data.getD i 0 ≠ 0 := by
  simp only [stepSignal, List.getD_eq_getElem?_getD, List.getElem?_map, List.getElem?_range h, Option.map_some, Option.getD_some]
  split <;> norm_num
theorem faint_length (n : Nat) (ε : ℝ) : (faintSignal n ε).data.length = n := by simp [faintSignal]
theorem faint_rate (n : Nat) (ε : ℝ) : (faintSignal n ε).sampleRate = 16000 := rfl
theorem faint_mem {n : Nat} {ε x : ℝ} (h : x ∈ (faintSignal n ε).data) : x = ε := List.eq_of_mem_replicate h
theorem faint_has {n : Nat} {ε : ℝ} (hn : n ≠ 0) (h : ε ≠ 0) : ∃ x ∈ (faintSignal n ε).data, x ≠ 0 :=
  ⟨ε, by simp [faintSignal, hn], h⟩

theorem faint_run (p : Profile) {a b : Nat} {ε : ℝ} (ha : 40000 ≤ a) (ha2 : a ≤ 80000) (hb : a ≤ b) (hb2 : b ≤ 90000)
    {world : World ℝ} {path : String} (hmod : world.svr path = some ⟨32, fun _ => some (some 3.5)⟩) {m : Manager ℝ}
    (hm : Manager.new world 32 (.fullband path) 60 = .ok m) :
    ∃ m' res, m.computeResults p (faintSignal a ε) (stepSignal b) = .ok (m', res) := by
  have hm' : m = ⟨32, 60, .image 20, .svr ⟨32, fun _ => some (some 3.5)⟩, FilterBank.new 32 50.0⟩ := by
    unfold Manager.new at hm
    simp only [hmod, expect, ok_bind] at hm
    exact (Except.ok.inj hm).symm
  subst hm'
  refine C63_fullband_succeeds p _ rfl (by norm_num) (fun v hv => ?_) rfl ?_ ?_ ?_ ?_ ?_ ?_ ?_ ?_ ?_
  · refine ⟨Flt.clamp 3.5 1.0 5.0, ?_⟩
    have hv : v.length = 32 := hv
    show (svrPredict _ v >>= _) = _
    unfold svrPredict
    rw [if_neg (by show ¬ 32 < _; omega)]
    rfl
  all_goals simp only [step_length, faint_length, faint_rate, window_16k, columns_16k, drift_16k]
  all_goals omega

theorem upperLimit_16k : 50 < upperLimit 32 16000 := by unfold upperLimit; norm_num

/-- The hypotheses of `C78_inaudible` and `C78_quiet` hold for a comparison of two quite different signals. -/
example (p : Profile) : ∃ (ε : ℝ) (m m' : Manager ℝ) (res : SimilarityResult ℝ), 0 < ε ∧
    Manager.new demoWorld 32 (.fullband "model") 60 = .ok m ∧
    m.computeResults p (faintSignal 40000 ε) (stepSignal 60000) = .ok (m', res) ∧ res.vnsim = 1 := by
  obtain ⟨ε, hε, key⟩ := C78_quiet 32 16000 60000 (by norm_num) (by norm_num) upperLimit_16k
  have hmod : demoWorld.svr "model" = some ⟨32, fun _ => some (some 3.5)⟩ := rfl
  obtain ⟨m, hm⟩ : ∃ m, Manager.new demoWorld 32 (.fullband "model") 60 = .ok m := ⟨_, rfl⟩
  obtain ⟨m', res, h⟩ := faint_run p (ε := ε) (le_refl 40000) (by omega) (by omega : 40000 ≤ 60000) (by omega) hmod hm
  refine ⟨ε, m, m', res, hε, hm, h, ?_⟩
  have hex := faint_has (n := 40000) (by norm_num) hε.ne'
  exact (key hm .fresh (faint_rate _ _) (step_rate _) (by rw [faint_length]; norm_num) (by rw [step_length]) (by norm_num)
    (by rw [faint_length, step_length]) hex
    (fun x hx => by rw [faint_mem hx, abs_of_pos hε]) ⟨20000, by rw [faint_length], step_get (by norm_num)⟩ h).2.2.1

/-- The similarities in the search windows of `C77_radius` are positive in the same comparison. -/
example (p : Profile) : ∃ (ε : ℝ) (m m' : Manager ℝ) (res : SimilarityResult ℝ),
    Manager.new demoWorld 32 (.fullband "model") 60 = .ok m ∧
    m.computeResults p (faintSignal 40000 ε) (stepSignal 60000) = .ok (m', res) ∧
    ∀ al lag, globallyAlign p (faintSignal 40000 ε) (stepSignal 60000) = .ok (some (al, lag)) →
      ∀ st : Stages p m.numBands m.filterBank (faintSignal 40000 ε) al (AnalysisWindow.mk' (faintSignal 40000 ε).sampleRate 0.25 0.08)
        m.patchCreator m.mapper m.searchWindow res, PositiveWindows p st (60 * 20) := by
  obtain ⟨ε, hε, key⟩ := quiet_enough 32 16000 60000
  have hmod : demoWorld.svr "model" = some ⟨32, fun _ => some (some 3.5)⟩ := rfl
  obtain ⟨m, hm⟩ : ∃ m, Manager.new demoWorld 32 (.fullband "model") 60 = .ok m := ⟨_, rfl⟩
  obtain ⟨m', res, h⟩ := faint_run p (ε := ε) (le_refl 40000) (by omega) (by omega : 40000 ≤ 60000) (by omega) hmod hm
  obtain ⟨k1, k2⟩ := key (faintSignal 40000 ε) (stepSignal 60000) (by rw [step_length]) (by rw [faint_length, step_length])
    (fun x hx => by rw [faint_mem hx, abs_of_pos hε])
  refine ⟨ε, m, m', res, hm, h, fun al lag hal st => ?_⟩
  have hex := faint_has (n := 40000) (by norm_num) hε.ne'
  obtain ⟨hall, q1, q2⟩ := inaudible_zero (ref := faintSignal 40000 ε) (deg := stepSignal 60000) hm .fresh rfl (by rw [faint_rate]; norm_num) (by rw [faint_rate]; norm_num)
    upperLimit_16k (by rw [faint_length]; norm_num) (by rw [step_length]; norm_num)
    (by rw [faint_length, step_length]) hex
    ⟨20000, by rw [faint_length], step_get (by norm_num)⟩ k1 k2 hal st
  have hz := st.zero_sims q1 q2
  obtain ⟨w1, w2, s1, s2, s3, s4⟩ := st.shapes
  obtain ⟨c1, c2⟩ := createPatches_ok st.created w1
  have hpc : m.patchCreator = .image 20 := (new_mapper hm).2.2.1
  have hps : m.patchCreator.patchSize = 20 := by rw [hpc]; rfl
  have hnb : m.numBands = 32 := (new_mapper hm).1
  have hmono := @numColumns_mono (AnalysisWindow.mk' (F := ℝ) (faintSignal 40000 ε).sampleRate 0.25 0.08).size
    (AnalysisWindow.mk' (F := ℝ) (faintSignal 40000 ε).sampleRate 0.25 0.08).hop _ _ hall
  refine ⟨fun i hi => ?_, fun n hn o ho => ?_⟩
  · obtain ⟨k, hk⟩ := List.getElem?_of_mem hi
    have := (createPatches_get st.created hk).2
    omega
  · have hnp : n < st.patches.length := by have := st.coarse_ok.2.1; omega
    obtain ⟨e1, e2, e3⟩ := c2 _ (List.getElem_mem hnp)
    obtain ⟨v1, v2, v3⟩ := window_wf st.degM o m.patchCreator.patchSize
    obtain ⟨x, hx⟩ : ∃ x, measurePatchSimilarity p st.patches[n] (st.degM.window o m.patchCreator.patchSize) = .ok x :=
      ⟨_, measurePatchSimilarity_eq p _ _ e1 v1 ⟨by rw [e2, v2]; omega, by rw [e3, v3]⟩ (by rw [e2]; omega) (by rw [e3]; omega)⟩
    unfold simAt
    simp only [List.getElem?_eq_getElem hnp, e3, hx]
    exact lt_of_lt_of_eq one_pos (hz _ (List.getElem_mem hnp) o _ hx).symm

end Visqol
