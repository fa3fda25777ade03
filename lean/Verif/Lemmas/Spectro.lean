import Verif.Lemmas.Basic
import Verif.Lemmas.History
import Verif.Spec.Grid

/-! # The spectrogram in closed form -/

set_option linter.unusedSectionVars false

namespace Visqol
variable {F : Type} [Flt F]

/-- Four cascaded sections from zero conditions. -/
def cascade (c : BandCoeffs F) (x : List F) : List F :=
  let den : Taps F := ⟨c.b0, c.b1, c.b2⟩
  let x := (filterSignal ⟨c.a0 / c.gain, c.a11 / c.gain, c.a2 / c.gain⟩ den x (0.0, 0.0)).1
  let x := (filterSignal ⟨c.a0, c.a12, c.a2⟩ den x (0.0, 0.0)).1
  let x := (filterSignal ⟨c.a0, c.a13, c.a2⟩ den x (0.0, 0.0)).1
  (filterSignal ⟨c.a0, c.a14, c.a2⟩ den x (0.0, 0.0)).1

/-- Root mean square of one filtered frame. -/
def bandEnergy (c : BandCoeffs F) (frame : List F) : F :=
  Flt.sqrt (Flt.sum ((cascade c frame).map fun e => e * e) / Flt.ofNat frame.length)

theorem applyBand_fresh {fb : FilterBank F} {band : Nat} {input : List F} {c : BandCoeffs F}
    (hc : fb.coeffs[band]? = some c) (h1 : fb.cond1[band]? = some (0.0, 0.0)) (h2 : fb.cond2[band]? = some (0.0, 0.0))
    (h3 : fb.cond3[band]? = some (0.0, 0.0)) (h4 : fb.cond4[band]? = some (0.0, 0.0)) :
    ∃ z1 z2 z3 z4, fb.applyBand band input = .ok ({ fb with
      cond1 := fb.cond1.set band z1, cond2 := fb.cond2.set band z2, cond3 := fb.cond3.set band z3,
      cond4 := fb.cond4.set band z4 }, cascade c input) := by
  unfold FilterBank.applyBand idx
  rw [hc, h1, h2, h3, h4]
  exact ⟨_, _, _, _, rfl⟩

/-- Conditions from index `b` on are still zero. -/
def FreshFrom (nb b : Nat) (l : List (F × F)) : Prop :=
  l.length = nb ∧ ∀ i, b ≤ i → i < nb → l[i]? = some (0.0, 0.0)

theorem FreshFrom.set {nb b : Nat} {l : List (F × F)} (h : FreshFrom nb b l) (z : F × F) : FreshFrom nb (b + 1) (l.set b z) := by
  refine ⟨by simp [h.1], fun i h1 h2 => ?_⟩
  rw [List.getElem?_set_ne (by omega)]
  exact h.2 i (by omega) h2

theorem freshFrom_replicate (nb : Nat) : FreshFrom nb 0 (List.replicate nb ((0.0 : F), (0.0 : F))) :=
  ⟨by simp, fun i _ h => by rw [List.getElem?_replicate, if_pos h]⟩

theorem applyFilter_loop (nb : Nat) (input : List F) (coeffs : List (BandCoeffs F)) (hl : coeffs.length = nb) :
    ∀ (k b : Nat) (fb : FilterBank F) (acc : List (List F)), b + k = nb → fb.coeffs = coeffs →
      FreshFrom nb b fb.cond1 → FreshFrom nb b fb.cond2 → FreshFrom nb b fb.cond3 → FreshFrom nb b fb.cond4 →
      ∃ fb', foldE (fun (st : FilterBank F × List (List F)) band => do
          let r ← st.1.applyBand band input
          .ok (r.1, st.2 ++ [r.2])) (fb, acc) (List.range' b k) =
        .ok (fb', acc ++ (coeffs.drop b).map (cascade · input)) ∧ fb'.coeffs = coeffs ∧ fb'.minFreq = fb.minFreq
  | 0, b, fb, acc, hk, hc, _, _, _, _ => by
    refine ⟨fb, ?_, hc, rfl⟩
    rw [List.drop_of_length_le (by omega)]
    simp [foldE]
  | k + 1, b, fb, acc, hk, hc, h1, h2, h3, h4 => by
    have hb : b < coeffs.length := by omega
    obtain ⟨z1, z2, z3, z4, he⟩ := applyBand_fresh (fb := fb) (band := b) (input := input) (c := coeffs[b])
      (by rw [hc]; exact List.getElem?_eq_getElem hb) (h1.2 b (by omega) (by omega)) (h2.2 b (by omega) (by omega))
      (h3.2 b (by omega) (by omega)) (h4.2 b (by omega) (by omega))
    obtain ⟨fb', hf, hc', hm⟩ := applyFilter_loop nb input coeffs hl k (b + 1)
      { fb with cond1 := fb.cond1.set b z1, cond2 := fb.cond2.set b z2, cond3 := fb.cond3.set b z3, cond4 := fb.cond4.set b z4 }
      (acc ++ [cascade coeffs[b] input]) (by omega) hc (h1.set z1) (h2.set z2) (h3.set z3) (h4.set z4)
    refine ⟨fb', ?_, hc', hm⟩
    rw [List.range'_succ]
    simp only [foldE, he, ok_bind]
    rw [hf, List.drop_eq_getElem_cons hb]
    simp only [List.map_cons, List.append_assoc, List.singleton_append]

theorem applyFilter_eq {nb : Nat} {fb : FilterBank F} (hl : fb.coeffs.length = nb) (input : List F) :
    ∃ fb', (fb.reset nb).applyFilter nb input = .ok (fb', fb.coeffs.map (cascade · input)) ∧ fb'.coeffs = fb.coeffs ∧
      fb'.minFreq = fb.minFreq := by
  obtain ⟨fb', h1, h2, h3⟩ := applyFilter_loop nb input fb.coeffs hl nb 0 (fb.reset nb) [] (by omega) rfl
    (freshFrom_replicate nb) (freshFrom_replicate nb) (freshFrom_replicate nb) (freshFrom_replicate nb)
  refine ⟨fb', ?_, h2, h3⟩
  unfold FilterBank.applyFilter
  rw [List.range_eq_range', h1]
  simp

theorem processFrame_eq {nb : Nat} {fb : FilterBank F} (hl : fb.coeffs.length = nb) {frame : List F} (hf : frame ≠ []) :
    ∃ fb', processFrame nb fb frame = .ok (fb', fb.coeffs.map (bandEnergy · frame)) ∧ fb'.coeffs = fb.coeffs ∧
      fb'.minFreq = fb.minFreq := by
  obtain ⟨fb', h1, h2, h3⟩ := applyFilter_eq hl frame
  refine ⟨fb', ?_, h2, h3⟩
  unfold processFrame
  simp only [h1, ok_bind]
  unfold frameEnergies Mat.meanRows
  rw [if_neg (by simpa using hf)]
  simp only [expect, ok_bind, List.map_map]
  rfl

theorem frames_loop {nb : Nat} (coeffs : List (BandCoeffs F)) (hl : coeffs.length = nb) (s : List F) (size : Nat) :
    ∀ (starts : List Nat) (fb : FilterBank F) (acc : List (List F)), fb.coeffs = coeffs →
      (∀ st ∈ starts, (s.drop st).take size ≠ []) →
      ∃ fb', foldE (fun (st : FilterBank F × List (List F)) start => do
          let fr ← processFrame nb st.1 ((s.drop start).take size)
          .ok (fr.1, st.2 ++ [fr.2])) (fb, acc) starts =
        .ok (fb', acc ++ starts.map fun st => coeffs.map (bandEnergy · ((s.drop st).take size)))
  | [], fb, acc, hc, _ => ⟨fb, by simp [foldE]⟩
  | st :: starts, fb, acc, hc, hne => by
    obtain ⟨fb1, h1, h2, _⟩ := processFrame_eq (nb := nb) (fb := fb) (by rw [hc]; exact hl) (hne st (by simp))
    obtain ⟨fb', h3⟩ := frames_loop coeffs hl s size starts fb1
      (acc ++ [fb.coeffs.map (bandEnergy · ((s.drop st).take size))]) (h2.trans hc) (fun x hx => hne x (by simp [hx]))
    refine ⟨fb', ?_⟩
    simp only [foldE, h1, ok_bind]
    rw [h3, hc]
    simp

/-- The frame at column `j`. -/
def frameAt (s : AudioSignal F) (w : AnalysisWindow F) (j : Nat) : List F := (s.data.drop (j * w.hop)).take w.size

/-- Number of columns. -/
def numColumns (len size hop : Nat) : Nat := 1 + (len - size) / hop

/-- Coefficients used for the rows, lowest band first. -/
def rowCoeffs (nb sampleRate : Nat) (minFreq : F) : List (BandCoeffs F) :=
  (makeFilters nb sampleRate minFreq (Flt.ofNat (builderMaxFreq nb sampleRate))).1.reverse

/-- Centre frequencies in the order of `calculate_uniform_center_freqs`. -/
def rawFreqs (nb sampleRate : Nat) (minFreq : F) : List F :=
  (makeFilters nb sampleRate minFreq (Flt.ofNat (builderMaxFreq nb sampleRate))).2

theorem rawFreqs_length (nb sr : Nat) (f : F) : (rawFreqs nb sr f).length = nb := by
  simp [rawFreqs, makeFilters, uniformCenterFreqs]

theorem rowCoeffs_length (nb sr : Nat) (f : F) : (rowCoeffs nb sr f).length = nb := by
  simp [rowCoeffs, makeFilters, uniformCenterFreqs]

theorem rowCoeffs_eq (nb sr : Nat) (f : F) : rowCoeffs nb sr f = ((rawFreqs nb sr f).reverse).map (bandCoeffs sr) := by
  simp [rowCoeffs, rawFreqs, makeFilters, List.map_reverse]

/-- The spectrogram matrix. -/
def spectroMat (nb : Nat) (minFreq : F) (s : AudioSignal F) (w : AnalysisWindow F) : Mat F :=
  ⟨numColumns s.data.length w.size w.hop, (rowCoeffs nb s.sampleRate minFreq).map fun c =>
    (List.range (numColumns s.data.length w.size w.hop)).map fun j => bandEnergy c (frameAt s w j)⟩

theorem frameStarts_eq {len size hop : Nat} (h : 0 < hop) :
    frameStarts len size hop = (List.range (numColumns len size hop)).map (· * hop) := by
  unfold frameStarts numColumns
  congr 2
  have : len - size + 1 + (hop - 1) = (len - size) + hop := by omega
  rw [this, Nat.add_div_right _ h]
  omega

theorem frameAt_ne_nil {s : AudioSignal F} {w : AnalysisWindow F} (h1 : w.size ≤ s.data.length) (h2 : 0 < w.hop)
    (h3 : 0 < w.size) {j : Nat} (hj : j < numColumns s.data.length w.size w.hop) : frameAt s w j ≠ [] := by
  unfold frameAt numColumns at *
  have h4 : j * w.hop ≤ s.data.length - w.size := by
    have := Nat.div_mul_le_self (s.data.length - w.size) w.hop
    calc j * w.hop ≤ (s.data.length - w.size) / w.hop * w.hop := Nat.mul_le_mul_right _ (by omega)
      _ ≤ _ := this
  intro h
  have := congrArg List.length h
  simp only [List.length_take, List.length_drop, List.length_nil] at this
  omega

theorem frameAt_length {s : AudioSignal F} {w : AnalysisWindow F} (h1 : w.size ≤ s.data.length)
    {j : Nat} (hj : j < numColumns s.data.length w.size w.hop) : (frameAt s w j).length = w.size := by
  unfold frameAt numColumns at *
  have h4 : j * w.hop ≤ s.data.length - w.size := by
    have := Nat.div_mul_le_self (s.data.length - w.size) w.hop
    calc j * w.hop ≤ (s.data.length - w.size) / w.hop * w.hop := Nat.mul_le_mul_right _ (by omega)
      _ ≤ _ := this
  simp only [List.length_take, List.length_drop]
  omega

/-- The builder in closed form: which failures occur, and the value otherwise. -/
theorem buildSpectrogram_eq (nb : Nat) (fb : FilterBank F) (s : AudioSignal F) (w : AnalysisWindow F)
    (h1 : w.size ≤ s.data.length) (h2 : 0 < w.hop) (h3 : 0 < w.size) :
    ∃ fb', buildSpectrogram nb fb s w = (sortFreqs (rawFreqs nb s.sampleRate fb.minFreq) >>= fun sorted =>
      .ok (fb', ⟨spectroMat nb fb.minFreq s w, sorted⟩)) := by
  unfold buildSpectrogram
  dsimp only
  rw [if_neg (by omega), if_neg (by omega), if_neg (by omega)]
  rw [frameStarts_eq h2]
  have hl := rowCoeffs_length nb s.sampleRate fb.minFreq
  obtain ⟨fb', hf⟩ := frames_loop (nb := nb) (rowCoeffs nb s.sampleRate fb.minFreq) hl s.data w.size
    ((List.range (numColumns s.data.length w.size w.hop)).map (· * w.hop))
    ((fb.setCoeffs (rowCoeffs nb s.sampleRate fb.minFreq)).reset nb) [] rfl (by
      intro st hst
      obtain ⟨j, hj, rfl⟩ := List.mem_map.mp hst
      exact frameAt_ne_nil h1 h2 h3 (List.mem_range.mp hj))
  refine ⟨fb', ?_⟩
  unfold rowCoeffs at hf
  rw [hf]
  simp only [ok_bind, List.nil_append, List.map_map]
  unfold assembleColumns
  rw [if_pos (by simp [numColumns])]
  simp only [ok_bind]
  congr 1
  funext sorted
  congr 3
  unfold spectroMat
  congr 1
  apply List.ext_getElem?
  intro i
  rw [List.getElem?_map, List.getElem?_map]
  have hl' : (rowCoeffs nb s.sampleRate fb.minFreq).length = nb := hl
  by_cases hi : i < nb
  · rw [List.getElem?_range hi, List.getElem?_eq_getElem (by omega : i < (rowCoeffs nb s.sampleRate fb.minFreq).length)]
    simp only [Option.map_some, List.map_map]
    congr 1
    rw [List.length_map, List.length_range, show 1 + (s.data.length - w.size) / w.hop -
      numColumns s.data.length w.size w.hop = 0 by simp [numColumns]]
    simp only [List.replicate_zero, List.append_nil]
    apply List.map_congr_left
    intro j _
    simp only [Function.comp]
    rw [List.getD_eq_getElem?_getD, List.getElem?_map]
    rw [show (makeFilters nb s.sampleRate fb.minFreq (Flt.ofNat (builderMaxFreq nb s.sampleRate))).1.reverse =
      rowCoeffs nb s.sampleRate fb.minFreq from rfl,
      List.getElem?_eq_getElem (by omega : i < (rowCoeffs nb s.sampleRate fb.minFreq).length)]
    rfl
  · rw [List.getElem?_eq_none (by simpa using hi), List.getElem?_eq_none (by omega)]; rfl

/-- Every successful build satisfies the size conditions. -/
theorem buildSpectrogram_ok {nb : Nat} {fb fb' : FilterBank F} {s : AudioSignal F} {w : AnalysisWindow F} {sp : Spectrogram F}
    (h : buildSpectrogram nb fb s w = .ok (fb', sp)) :
    w.size ≤ s.data.length ∧ 0 < w.hop ∧ 0 < w.size ∧ sp.data = spectroMat nb fb.minFreq s w ∧
      sortFreqs (rawFreqs nb s.sampleRate fb.minFreq) = .ok sp.centerFreqBands := by
  have hc : w.size ≤ s.data.length ∧ 0 < w.hop ∧ 0 < w.size := by
    unfold buildSpectrogram at h
    dsimp only at h
    split at h
    · cases h
    split at h
    · cases h
    split at h
    · cases h
    · omega
  refine ⟨hc.1, hc.2.1, hc.2.2, ?_⟩
  obtain ⟨fb1, he⟩ := buildSpectrogram_eq nb fb s w hc.1 hc.2.1 hc.2.2
  rw [he] at h
  obtain ⟨so, hs, h⟩ := bind_ok h
  cases h
  exact ⟨rfl, hs⟩

theorem sortFreqs_perm {l l' : List F} (h : sortFreqs l = .ok l') : l'.Perm l := by
  unfold sortFreqs at h
  split at h
  · cases h
  · cases h; exact List.mergeSort_perm _ _

theorem spectroMat_wf (nb : Nat) (f : F) (s : AudioSignal F) (w : AnalysisWindow F) : (spectroMat nb f s w).WF := by
  intro r hr
  obtain ⟨c, _, rfl⟩ := List.mem_map.mp hr
  simp [spectroMat]

theorem spectroMat_nrows (nb : Nat) (f : F) (s : AudioSignal F) (w : AnalysisWindow F) : (spectroMat nb f s w).nrows = nb := by
  simp [spectroMat, Mat.nrows, rowCoeffs_length]

end Visqol
