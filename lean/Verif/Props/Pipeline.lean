import Verif.Props.Delay
import Verif.Props.Gammatone
import Verif.Props.Bands
import Verif.Props.Prepare
import Verif.Props.NsimFormula
import Verif.Props.Match
import Verif.Props.Self
import Verif.Props.Pooled
import Verif.Props.NoFailure
import Verif.Props.Level
import Verif.Spec.Pipeline

/-! # From the samples to the scores of a patch (C71) -/

set_option linter.unusedSectionVars false

namespace Visqol

open Spec

theorem cut_eq {x : List ℝ} {i n : ℕ} (h : i + n ≤ x.length) : (x.drop i).take n = cut x i (i + n) := by
  unfold cut
  apply List.ext_getElem
  · simp; omega
  · intro k h1 h2
    simp at h1
    simp only [List.getElem_take, List.getElem_drop, List.getElem_map, List.getElem_range]
    rw [List.getD_eq_getElem?_getD, List.getElem?_eq_getElem (by omega)]
    rfl

theorem response_norm {sr : ℕ} {f : ℝ} (s : ℝ) (hw : ‖Complex.exp (radians sr f * Complex.I)‖ = 1) :
    ‖response sr f s‖ = ‖(1 / sr : ℝ) * Complex.exp (radians sr f * Complex.I) + ((-(1 / sr * zeroAt sr f s) : ℝ) : ℂ)‖ /
      ‖Complex.exp (radians sr f * Complex.I) ^ 2 + ((-2 * poleRadius sr f * Real.cos (radians sr f) : ℝ) : ℂ) *
        Complex.exp (radians sr f * Complex.I) + ((poleRadius sr f ^ 2 : ℝ) : ℂ)‖ := by
  unfold response transfer
  generalize Complex.exp (radians sr f * Complex.I) = w at *
  rw [norm_div]
  congr 1
  rw [show (((1 / sr : ℝ) : ℂ) * w ^ 2 + ((-(1 / sr * zeroAt sr f s) : ℝ) : ℂ) * w + ((0 : ℝ) : ℂ)) =
    w * ((1 / sr : ℝ) * w + ((-(1 / sr * zeroAt sr f s) : ℝ) : ℂ)) by push_cast; ring, norm_mul, hw, one_mul]

/-- The gain by which the first section is divided. -/
theorem gain_spec {sr : ℕ} {f : ℝ} (h : 0 < f) :
    (bandCoeffs sr f).gain = ‖response sr f (Real.sqrt (3 + 2 ^ (1.5 : ℝ))) * response sr f (-Real.sqrt (3 + 2 ^ (1.5 : ℝ))) *
      response sr f (Real.sqrt (3 - 2 ^ (1.5 : ℝ))) * response sr f (-Real.sqrt (3 - 2 ^ (1.5 : ℝ)))‖ := by
  have hg := bandCoeffs_gain (sr := sr) h
  obtain ⟨e0, e2, f0, f1, f2, g1, g2, g3, g4⟩ := bandCoeffs_spec (sr := sr) h
  have hw : ‖Complex.exp (radians sr f * Complex.I)‖ = 1 := Complex.norm_exp_ofReal_mul_I _
  dsimp only at hg
  rw [hg, norm_mul, norm_mul, norm_mul, norm_mul, norm_mul, norm_mul, response_norm _ hw, response_norm _ hw, response_norm _ hw,
    response_norm _ hw, e0, f1, f2, g1, g2, g3, g4]
  ring

/-- A built spectrogram has the levels of the frames in equally spaced bands. -/
theorem isSpectrogram {nb : ℕ} {mf : ℝ} {s : AudioSignal ℝ} {w : AnalysisWindow ℝ} (hw : w.size ≤ s.data.length) (hh : 0 < w.hop)
    (hs : 0 < w.size) (h0 : 0 < mf) (h1 : mf < upperLimit nb s.sampleRate) :
    IsSpectrogram nb s.sampleRate mf (upperLimit nb s.sampleRate) w.size w.hop (numColumns s.data.length w.size w.hop) s.data
      (spectroMat nb mf s w).at := by
  obtain ⟨fb', sp, h, hd, _⟩ := buildSpectrogram_total nb (FilterBank.new nb mf) s w hw hh hs
  have hm : (FilterBank.new nb mf).minFreq = mf := rfl
  rw [hm] at hd
  intro b hb
  obtain ⟨f, hf, he⟩ := C67_spacing h h0.le h1 hb
  have hf0 : 0 < f := h0.trans_le ((C22_bands h h0.le h1).below f (List.mem_of_getElem? hf)).1
  refine ⟨f, hf0, he, fun j hj => ?_⟩
  have hjc : j < sp.data.ncols := by rw [hd]; exact hj
  obtain ⟨y1, y2, y3, y4, k1, k2, k3, k4, k5⟩ := C22_rows h h0.le h1 hf hjc
  obtain ⟨e0, e2, f0, f1, f2, g1, g2, g3, g4⟩ := bandCoeffs_spec (sr := s.sampleRate) hf0
  have hg := gain_spec (sr := s.sampleRate) hf0
  have hfit : j * w.hop + w.size ≤ s.data.length := by
    unfold numColumns at hj
    have : j * w.hop ≤ s.data.length - w.size := by
      calc j * w.hop ≤ ((s.data.length - w.size) / w.hop) * w.hop := Nat.mul_le_mul_right _ (by omega)
        _ ≤ _ := Nat.div_mul_le_self _ _
    omega
  rw [cut_eq hfit] at k1
  rw [← hd]
  unfold IsLevel IsSection
  dsimp only
  rw [← hg, ← g1, ← g2, ← g3, ← g4, ← f1, ← f2, ← e0]
  rw [e2, zero_div] at k1
  rw [e2] at k2 k3 k4
  simp only [div_one]
  exact ⟨y1, y2, y3, y4, k1, k2, k3, k4, k5⟩

/-- Prepared spectrograms of two signals. -/
theorem arePrepared {nb : ℕ} {mf : ℝ} {s t : AudioSignal ℝ} {w : AnalysisWindow ℝ} {a b : Mat ℝ} (hst : s.sampleRate = t.sampleRate)
    (hw : w.size ≤ s.data.length) (hw2 : w.size ≤ t.data.length) (hh : 0 < w.hop)
    (hs : 0 < w.size) (h0 : 0 < mf) (h1 : mf < upperLimit nb s.sampleRate)
    (h : prepareSpectrograms (spectroMat nb mf s w) (spectroMat nb mf t w) = .ok (a, b)) :
    ArePrepared nb s.sampleRate mf (upperLimit nb s.sampleRate) w.size w.hop a.ncols b.ncols s.data t.data a.at b.at := by
  obtain ⟨_, _, _, e2, _, e4, key⟩ := C23_formula (spectroMat_wf _ _ _ _) (spectroMat_wf _ _ _ _) h
  rw [spectroMat_nrows, spectroMat_nrows] at key
  refine ⟨hw, ?_, hw2, ?_, (spectroMat nb mf s w).at, (spectroMat nb mf t w).at, ?_, ?_, ?_⟩
  · rw [e2]; exact Nat.add_comm _ _
  · rw [e4]; exact Nat.add_comm _ _
  · rw [e2]; exact isSpectrogram hw hh hs h0 h1
  · rw [e4, hst]; exact isSpectrogram hw2 hh hs h0 (hst ▸ h1)
  · rw [e2, e4]; exact key

/-- The scores reported in `q` are those of the comparison of `A` with `B`, both with `nb` bands and `c` frames. -/
structure Scored (nb c : ℕ) (A B : ℕ → ℕ → ℝ) (q : PatchSim ℝ) : Prop where
  means : q.freqBandMeans = (List.range nb).map fun b => mean (bandSimilarities nb c A B b)
  stddevs : q.freqBandStddevs = (List.range nb).map fun b => sampleStd (bandSimilarities nb c A B b)
  energies : q.freqBandDegEnergy = (List.range nb).map fun b => mean ((List.range c).map (B b))
  similarity : q.similarity = mean q.freqBandMeans

theorem bandSimilarities_congr {n c : ℕ} {f g f' g' : ℕ → ℕ → ℝ} (hn : 0 < n) (hf : ∀ i < n, ∀ j < c, f i j = f' i j)
    (hg : ∀ i < n, ∀ j < c, g i j = g' i j) (b : ℕ) : bandSimilarities n c f g b = bandSimilarities n c f' g' b := by
  unfold bandSimilarities
  refine List.map_congr_left fun j hj => ?_
  have hj := List.mem_range.mp hj
  have e1 : ∀ u v, around n c f b j u v = around n c f' b j u v := fun u v => hf _ (by omega) _ (by omega)
  have e2 : ∀ u v, around n c g b j u v = around n c g' b j u v := fun u v => hg _ (by omega) _ (by omega)
  unfold intensity structural localCov localMean
  simp only [e1, e2]

theorem Scored.congr {nb c : ℕ} {A B A' B' : ℕ → ℕ → ℝ} {q : PatchSim ℝ} (h : Scored nb c A B q) (hn : 0 < nb)
    (hA : ∀ i < nb, ∀ j < c, A i j = A' i j) (hB : ∀ i < nb, ∀ j < c, B i j = B' i j) : Scored nb c A' B' q := by
  refine ⟨?_, ?_, ?_, h.similarity⟩
  · rw [h.means]; exact List.map_congr_left fun b _ => by rw [bandSimilarities_congr hn hA hB]
  · rw [h.stddevs]; exact List.map_congr_left fun b _ => by rw [bandSimilarities_congr hn hA hB]
  · rw [h.energies]
    refine List.map_congr_left fun b hb => ?_
    congr 1
    exact List.map_congr_left fun j hj => hB b (List.mem_range.mp hb) j (List.mem_range.mp hj)

theorem scored_of_measure {p : Profile} {a b : Mat ℝ} {n q : PatchSim ℝ} (wa : a.WF) (wb : b.WF)
    (h : measurePatchSimilarity p a b = .ok n) (h1 : q.freqBandMeans = n.freqBandMeans) (h2 : q.freqBandStddevs = n.freqBandStddevs)
    (h3 : q.freqBandDegEnergy = n.freqBandDegEnergy) (h4 : q.similarity = n.similarity) : Scored a.nrows a.ncols a.at b.at q := by
  obtain ⟨e1, e2, e3, e4⟩ := (measure_formula p wa wb).2 n h
  exact ⟨h1.trans e1, h2.trans e2, h3.trans e3, by rw [h4, h1, e4]⟩

/-- Slicing by times cuts out samples. -/
theorem sliceSignal_cut {s x : AudioSignal ℝ} {a b : ℝ} {i j : ℕ} (h : sliceSignal s a b = .ok x) (ha : 0 ≤ a) (hab : a ≤ b)
    (hi : ⌊a * s.sampleRate⌋₊ = i) (hj : ⌊b * s.sampleRate⌋₊ = j) (hb : b * s.sampleRate < 18446744073709551616) :
    x = ⟨cut s.data i j, s.sampleRate⟩ := by
  have hin : ⌊a * s.sampleRate⌋₊ ≤ s.data.length := by
    unfold sliceSignal at h
    dsimp only at h
    obtain ⟨d, h1, _⟩ := bind_ok h
    have hfs : (0 : ℝ) ≤ s.sampleRate := Nat.cast_nonneg _
    have e1 : Flt.toUsize (a * (Flt.ofNat s.sampleRate : ℝ)) = ⌊a * s.sampleRate⌋₊ :=
      real_toUsize_floor (mul_nonneg ha hfs) ((mul_le_mul_of_nonneg_right hab hfs).trans_lt hb)
    rw [e1] at h1
    obtain ⟨h2, h3, _⟩ := sliceM_ok h1
    omega
  obtain ⟨d, h1, h2, h3⟩ := C38_slice s ha hab hin hb
  rw [h] at h1
  cases h1
  congr 1
  unfold cut
  apply List.ext_getElem?
  intro k
  rw [hi, hj] at h2
  by_cases hk : k < d.length
  · rw [h3 k hk, hi, List.getElem?_map, List.getElem?_range (by omega)]; rfl
  · rw [List.getElem?_eq_none (by omega), List.getElem?_eq_none (by simp; omega)]

/-- What fine alignment compares: the two segments from the start of the later one on, cut to the same length. -/
theorem alignAndTruncate_spec {p : Profile} {pad : ℕ → ℕ} (hpad : ∀ n, 1 ≤ n → n ≤ 2 ^ 63 → nextPowTwo p n = .ok (pad n))
    {ref deg r d : AudioSignal ℝ} {t : ℝ} (hr : 9 ≤ ref.data.length) (hd : 2 ≤ deg.data.length)
    (hbig : max ref.data.length deg.data.length ≤ 2 ^ 62) (hsr : ref.sampleRate = deg.sampleRate) (hs : 0 < ref.sampleRate)
    (h : alignAndTruncate p ref deg = .ok (some (r, d, t))) :
    ∃ z off L, IsDelay pad ref.data deg.data z ∧ t = (z : ℝ) / ref.sampleRate ∧
      off = (if ref.data.length < (shift z deg.data).length then z.toNat else 0) ∧
      off + L = min ref.data.length (shift z deg.data).length ∧
      r = ⟨cut ref.data off (off + L), ref.sampleRate⟩ ∧ d = ⟨cut (shift z deg.data) off (off + L), ref.sampleRate⟩ := by
  obtain ⟨z, hz, hg⟩ := C70_delay p hpad (by omega) hd (by omega) hbig
  have hne : (ref.sampleRate : ℝ) ≠ 0 := by positivity
  have hzb : z.toNat < 18446744073709551616 := by
    obtain ⟨lag, h1, rfl⟩ := hz
    have := h1.inside
    simp only [envelope, List.length_map, List.length_range] at this
    have := (abs_lt.mp this).2
    unfold accepted
    split <;> omega
  have hu : Flt.toUsize ((z : ℝ) / (ref.sampleRate : ℝ) * (ref.sampleRate : ℝ)) = z.toNat := by
    rw [div_mul_cancel₀ _ hne]
    rcases le_total z 0 with hz0 | hz0
    · rw [real_toUsize_nonpos (by exact_mod_cast hz0)]; omega
    · obtain ⟨n, rfl⟩ := Int.eq_ofNat_of_zero_le hz0
      rw [Int.toNat_natCast] at hzb ⊢
      rw [Int.cast_natCast, real_toUsize_floor (by positivity) (by exact_mod_cast hzb), Nat.floor_natCast]
  unfold alignAndTruncate at h
  rw [hg] at h
  simp only [ok_bind, real_ofNat, ← hsr] at h
  rw [hu] at h
  refine ⟨z, ?_⟩
  generalize shift z deg.data = v at *
  have key : ∀ (l : List ℝ) a b x, sliceM l a b = .ok x → x = cut l a (a + (b - a)) := by
    intro l a b x hx
    obtain ⟨q1, q2, q3⟩ := sliceM_ok hx
    rw [q3, cut_eq (by omega)]
  split at h
  · rename_i hlt
    obtain ⟨r', hr', h⟩ := bind_ok h
    obtain ⟨d', hd', h⟩ := bind_ok h
    cases h
    obtain ⟨q1, q2, _⟩ := sliceM_ok hr'
    refine ⟨z.toNat, ref.data.length - z.toNat, hz, rfl, by rw [if_pos hlt], by omega, ?_, ?_⟩
    · rw [key _ _ _ _ hr']
    · rw [key _ _ _ _ hd']
  · rename_i hlt
    have hself : ∀ l : List ℝ, l = cut l 0 (0 + l.length) := by
      intro l
      rw [← cut_eq (by omega)]; simp
    split at h
    · rename_i hlt2
      obtain ⟨r', hr', h⟩ := bind_ok h
      cases h
      refine ⟨0, v.length, hz, rfl, by rw [if_neg hlt], by omega, ?_, ?_⟩
      · rw [key _ _ _ _ hr']; rfl
      · rw [← hself]
    · cases h
      refine ⟨0, v.length, hz, rfl, by rw [if_neg hlt], by omega, ?_, ?_⟩
      · rw [show v.length = ref.data.length by omega, ← hself]
      · rw [← hself]

/-- What is known of a comparison: transform sizes, bands, sample rate, frequency range, frame and hop size, frames per patch,
frames of the two spectrograms, the two signals and their prepared spectrograms. -/
structure Setting where
  pad : ℕ → ℕ
  nb : ℕ
  sr : ℕ
  lo : ℝ
  hi : ℝ
  W : ℕ
  hop : ℕ
  P : ℕ
  c : ℕ
  d : ℕ
  x : List ℝ
  y : List ℝ
  A : ℕ → ℕ → ℝ
  B : ℕ → ℕ → ℝ

namespace Setting
variable (S : Setting)

/-- The distance of two frames in seconds. -/
noncomputable def frame : ℝ := S.W / 4 / S.sr

/-- `q` compares the `P` frames of the reference from frame `i` on with those of the degraded signal from frame `o` on, frames past the
end being zero. -/
structure Coarse (i o : ℕ) (q : PatchSim ℝ) : Prop where
  refStart : q.refStart = i * S.frame
  refEnd : q.refEnd = (i + S.P) * S.frame
  degStart : q.degStart = o * S.frame
  degEnd : q.degEnd = (o + S.P) * S.frame
  scores : Scored S.nb S.P (fun b j => S.A b (i + j)) (fun b j => if o + j < S.d then S.B b (o + j) else 0) q

/-- `q` compares the same stretches after delaying the second to match the first: the samples that both have are cut out and
compared by spectrograms of their own, with `n` frames. -/
structure Realigned (i o n : ℕ) (q : PatchSim ℝ) : Prop where
  exists_segments : ∃ (u v : List ℝ) (z : ℤ) (off L : ℕ) (A B : ℕ → ℕ → ℝ),
    u = cut S.x (i * S.W / 4) ((i + S.P) * S.W / 4) ∧ v = cut S.y (o * S.W / 4) ((o + S.P) * S.W / 4) ∧
    IsDelay S.pad u v z ∧ off = (if u.length < (shift z v).length then z.toNat else 0) ∧
    off + L = min u.length (shift z v).length ∧
    ArePrepared S.nb S.sr S.lo S.hi S.W S.hop n n (cut u off (off + L)) (cut (shift z v) off (off + L)) A B ∧
    Scored S.nb n A B q ∧
    q.refStart = i * S.frame + z.toNat / S.sr ∧ q.degStart = o * S.frame + (-z).toNat / S.sr ∧
    q.refEnd = q.refStart + L / S.sr ∧ q.degEnd = q.degStart + L / S.sr

/-- Where a reported patch comes from: it is silent because nothing in the degraded signal was matched to it, or it is the better of
the comparisons before and after fine alignment. -/
inductive Origin (q : PatchSim ℝ) : Prop
  | silent (i : ℕ) (hi : i + S.P ≤ S.c) (h1 : q.refStart = i * S.frame) (h2 : q.refEnd = (i + S.P) * S.frame) (h : Unmatched q)
  | coarse (i o : ℕ) (hi : i + S.P ≤ S.c) (ho : o < S.d) (h : S.Coarse i o q) (n : ℕ) (r : PatchSim ℝ) (hr : S.Realigned i o n r)
      (hlt : r.similarity < q.similarity)
  | realigned (i o n : ℕ) (hi : i + S.P ≤ S.c) (ho : o < S.d) (h : S.Realigned i o n q) (r : PatchSim ℝ) (hr : S.Coarse i o r)
      (hle : r.similarity ≤ q.similarity)

end Setting

theorem sliceCols_at {m m' : Mat ℝ} {a b : ℕ} (wf : m.WF) (h : m.sliceCols a b = .ok m') {i j : ℕ} (hi : i < m.nrows) (hj : j < b - a) :
    m'.at i j = m.at i (a + j) := by
  unfold Mat.sliceCols at h
  split at h
  · rename_i hc
    cases h
    have hi' : i < m.rows.length := hi
    have := wf _ (List.getElem_mem hi')
    simp only [Mat.at, List.getD_eq_getElem?_getD, List.getElem?_map, List.getElem?_eq_getElem hi', Option.map_some, Option.getD_some]
    rw [List.getElem?_take_of_lt hj, List.getElem?_drop]
  · cases h

theorem window_at {m : Mat ℝ} (wf : m.WF) {o n i j : ℕ} (hi : i < m.nrows) (hj : j < n) :
    (m.window o n).at i j = if o + j < m.ncols then m.at i (o + j) else 0 := by
  have hi' : i < m.rows.length := hi
  have := wf _ (List.getElem_mem hi')
  simp only [Mat.at, Mat.window, List.getD_eq_getElem?_getD, List.getElem?_map, List.getElem?_eq_getElem hi', Option.map_some,
    Option.getD_some, List.getElem?_range hj]
  split
  · rfl
  · rw [List.getElem?_eq_none (by omega)]; exact real_lit0

theorem floor_frames {sr W : ℕ} (hs : 0 < sr) (i : ℕ) : ⌊(i : ℝ) * ((W : ℝ) / 4 / sr) * sr⌋₊ = i * W / 4 := by
  have hs' : (sr : ℝ) ≠ 0 := by positivity
  rw [show (i : ℝ) * ((W : ℝ) / 4 / sr) * sr = ((i * W : ℕ) : ℝ) / ((4 : ℕ) : ℝ) by push_cast; field_simp]
  exact Nat.floor_div_eq_div _ _

/-- A comparison of a coarsely matched patch and what fine alignment makes of it. -/
theorem origin_of_step {p : Profile} {S : Setting} (hpad : ∀ n, 1 ≤ n → n ≤ 2 ^ 63 → nextPowTwo p n = .ok (S.pad n))
    {nb : ℕ} {mf : ℝ} {ref deg : AudioSignal ℝ} {w : AnalysisWindow ℝ} {r q : PatchSim ℝ} {i o : ℕ}
    (h0 : 0 < mf) (h1 : mf < upperLimit nb ref.sampleRate)
    (hsr : ref.sampleRate = deg.sampleRate) (hs : 0 < ref.sampleRate) (hh : 0 < w.hop)
    (e1 : S.nb = nb) (e2 : S.sr = ref.sampleRate) (e3 : S.lo = mf) (e4 : S.hi = upperLimit nb ref.sampleRate) (e5 : S.W = w.size)
    (e6 : S.hop = w.hop) (e7 : S.x = ref.data) (e8 : S.y = deg.data) (hW : 8 ≤ w.size) (hP : 20 ≤ S.P) (hi : i + S.P ≤ S.c)
    (ho : o < S.d) (hbi : (i + S.P) * w.size ≤ 2 ^ 62) (hbo : (o + S.P) * w.size ≤ 2 ^ 62)
    (hc : S.Coarse i o r) (hst : FineStep p nb mf ref deg w r q) : S.Origin q := by
  have hs' : (0 : ℝ) < ref.sampleRate := by exact_mod_cast hs
  have hw' : (0 : ℝ) < w.size := by have : 0 < w.size := by omega
                                    exact_mod_cast this
  have hfr : S.frame = (w.size : ℝ) / 4 / ref.sampleRate := by unfold Setting.frame; rw [e5, e2]
  have hfpos : 0 < S.frame := by rw [hfr]; positivity
  have hPpos : (0 : ℝ) < S.P := by have : 0 < S.P := by omega
                                   exact_mod_cast this
  -- the segments and what is made of them
  have key : ∀ {ra da raa daa : AudioSignal ℝ} {lag : ℝ} {rm dm : Mat ℝ} {n : PatchSim ℝ}, sliceSignal ref r.refStart r.refEnd = .ok ra →
      sliceSignal deg r.degStart r.degEnd = .ok da → alignAndTruncate p ra da = .ok (some (raa, daa, lag)) →
      w.size ≤ raa.data.length ∧ w.size ≤ daa.data.length →
      prepareSpectrograms (spectroMat nb mf raa w) (spectroMat nb mf daa w) = .ok (rm, dm) →
      measurePatchSimilarity p rm dm = .ok n → ∀ q' : PatchSim ℝ, q'.freqBandMeans = n.freqBandMeans →
      q'.freqBandStddevs = n.freqBandStddevs → q'.freqBandDegEnergy = n.freqBandDegEnergy → q'.similarity = n.similarity →
      q'.refStart = (if Flt.lt 0.0 lag then r.refStart + lag else r.refStart) →
      q'.degStart = (if Flt.lt 0.0 lag then r.degStart else r.degStart - lag) →
      q'.refEnd = q'.refStart + raa.duration → q'.degEnd = q'.degStart + daa.duration → S.Realigned i o rm.ncols q' := by
    intro ra da raa daa lag rm dm n k1 k2 k3 k4 k5 k6 q' m1 m2 m3 m4 t1 t2 t3 t4
    have cast : ∀ k : ℕ, (k + S.P) * w.size ≤ 2 ^ 62 → ((k : ℝ) + S.P) * S.frame * ref.sampleRate < 18446744073709551616 := by
      intro k hk
      have : ((k : ℝ) + S.P) * S.frame * ref.sampleRate = (((k + S.P) * w.size : ℕ) : ℝ) / 4 := by
        rw [hfr]; push_cast; field_simp
      rw [this]
      have : (((k + S.P) * w.size : ℕ) : ℝ) ≤ 2 ^ 62 := by exact_mod_cast hk
      rw [div_lt_iff₀ (by norm_num)]
      exact this.trans_lt (by norm_num)
    have hfl : ∀ k : ℕ, ⌊((k : ℝ) + S.P) * S.frame * ref.sampleRate⌋₊ = (k + S.P) * w.size / 4 := by
      intro k
      rw [hfr, ← floor_frames hs (k + S.P)]; push_cast; rfl
    have hmono : ∀ k : ℕ, (k : ℝ) * S.frame ≤ (k + S.P) * S.frame := fun k =>
      mul_le_mul_of_nonneg_right (by linarith) hfpos.le
    have hra := sliceSignal_cut (i := i * w.size / 4) (j := (i + S.P) * w.size / 4) k1 (by rw [hc.refStart]; positivity)
      (by rw [hc.refStart, hc.refEnd]; exact hmono i) (by rw [hc.refStart, hfr, floor_frames hs]) (by rw [hc.refEnd, hfl])
      (by rw [hc.refEnd]; exact cast i hbi)
    have hda := sliceSignal_cut (i := o * w.size / 4) (j := (o + S.P) * w.size / 4) k2 (by rw [hc.degStart]; positivity)
      (by rw [hc.degStart, hc.degEnd]; exact hmono o) (by rw [hc.degStart, hfr, ← hsr, floor_frames hs]) (by rw [hc.degEnd, ← hsr, hfl])
      (by rw [hc.degEnd, ← hsr]; exact cast o hbo)
    have hlen : ∀ k : ℕ, (k + S.P) * w.size ≤ 2 ^ 62 → 9 ≤ (k + S.P) * w.size / 4 - k * w.size / 4 ∧
        (k + S.P) * w.size / 4 - k * w.size / 4 ≤ 2 ^ 62 := by
      intro k hk
      have a1 : 20 * 8 ≤ S.P * w.size := Nat.mul_le_mul hP hW
      rw [Nat.add_mul] at *
      omega
    have lra : ra.data.length = (i + S.P) * w.size / 4 - i * w.size / 4 := by rw [hra]; simp [cut]
    have lda : da.data.length = (o + S.P) * w.size / 4 - o * w.size / 4 := by rw [hda]; simp [cut]
    have hb1 := hlen i hbi
    have hb2 := hlen o hbo
    have rra : ra.sampleRate = ref.sampleRate := by rw [hra]
    have rda : da.sampleRate = ref.sampleRate := by rw [hda, hsr]
    obtain ⟨z, off, L, z1, z2, z3, z4, z5, z6⟩ := alignAndTruncate_spec hpad (by omega) (by omega) (by omega) (rra.trans rda.symm)
      (by omega) k3
    have hL : L ≤ ra.data.length := by omega
    have lraa : raa.data.length = L := by rw [z5]; simp [cut]
    have ldaa : daa.data.length = L := by rw [z6]; simp [cut]
    have sraa : raa.sampleRate = ref.sampleRate := by rw [z5]; exact rra
    have sdaa : daa.sampleRate = ref.sampleRate := by rw [z6]; exact rra
    obtain ⟨f1, f2, f3, f4, f5, f6, _⟩ := C23_formula (spectroMat_wf _ _ _ _) (spectroMat_wf _ _ _ _) k5
    have hcols : rm.ncols = dm.ncols := by
      rw [f4, f6]; show numColumns _ _ _ = numColumns _ _ _; rw [lraa, ldaa]
    have hprep := arePrepared (sraa.trans sdaa.symm) k4.1 k4.2 hh (by omega) h0 (by rw [sraa]; exact h1) k5
    have hsc := scored_of_measure f1 f2 k6 m1 m2 m3 m4
    rw [f3, spectroMat_nrows] at hsc
    refine ⟨ra.data, da.data, z, off, L, rm.at, dm.at, ?_, ?_, z1, z3, z4, ?_, ?_, ?_, ?_, ?_, ?_⟩
    · rw [hra, e7, e5]
    · rw [hda, e8, e5]
    · rw [e1, e2, e3, e4, e5, e6]
      rw [← hcols, sraa, z5, z6] at hprep
      exact hprep
    · rw [e1]; exact hsc
    · rw [t1, hc.refStart, e2]
      simp only [real_lt, real_lit0, z2, rra]
      by_cases hz : 0 < z
      · have : (0 : ℝ) < (z : ℝ) / ref.sampleRate := div_pos (by exact_mod_cast hz) hs'
        simp only [this, decide_true, if_true]
        congr 2
        have : ((z.toNat : ℤ) : ℝ) = (z : ℝ) := by rw [Int.toNat_of_nonneg hz.le]
        exact_mod_cast this.symm
      · have : ¬ (0 : ℝ) < (z : ℝ) / ref.sampleRate := by
          rw [not_lt]
          exact div_nonpos_of_nonpos_of_nonneg (by exact_mod_cast not_lt.mp hz) hs'.le
        simp only [this, decide_false, Bool.false_eq_true, if_false]
        rw [show z.toNat = 0 by omega]; simp
    · rw [t2, hc.degStart, e2]
      simp only [real_lt, real_lit0, z2, rra]
      by_cases hz : 0 < z
      · have : (0 : ℝ) < (z : ℝ) / ref.sampleRate := div_pos (by exact_mod_cast hz) hs'
        simp only [this, decide_true, if_true]
        rw [show (-z).toNat = 0 by omega]; simp
      · have : ¬ (0 : ℝ) < (z : ℝ) / ref.sampleRate := by
          rw [not_lt]
          exact div_nonpos_of_nonpos_of_nonneg (by exact_mod_cast not_lt.mp hz) hs'.le
        simp only [this, decide_false, Bool.false_eq_true, if_false]
        have : (((-z).toNat : ℤ) : ℝ) = -(z : ℝ) := by rw [Int.toNat_of_nonneg (by omega)]; push_cast; rfl
        rw [Int.cast_natCast] at this
        rw [this, neg_div, sub_eq_add_neg]
    · rw [t3]
      unfold AudioSignal.duration
      rw [lraa, sraa, e2]; rfl
    · rw [t4]
      unfold AudioSignal.duration
      rw [ldaa, sdaa, e2]; rfl
  cases hst with
  | unmatched a1 a2 =>
    exfalso
    rw [real_eq] at a1
    have : r.degStart = r.degEnd := by simpa using a1
    rw [hc.degStart, hc.degEnd] at this
    have := mul_pos hPpos hfpos
    linarith [add_mul (o : ℝ) (S.P : ℝ) S.frame]
  | @kept ra da raa daa lag rm dm n a0 a1 a2 a3 a4 a5 a6 a7 =>
    refine .coarse i o hi ho hc _ ⟨n.freqBandMeans, n.freqBandStddevs, n.freqBandDegEnergy, n.similarity,
      (if Flt.lt 0.0 lag then r.refStart + lag else r.refStart),
      (if Flt.lt 0.0 lag then r.refStart + lag else r.refStart) + raa.duration,
      (if Flt.lt 0.0 lag then r.degStart else r.degStart - lag),
      (if Flt.lt 0.0 lag then r.degStart else r.degStart - lag) + daa.duration⟩
      (key a1 a2 a3 a4 a5 a6 _ rfl rfl rfl rfl rfl rfl rfl rfl) ?_
    simpa using a7
  | @replaced ra da raa daa lag rm dm n r' a0 a1 a2 a3 a4 a5 a6 a7 a8 a9 =>
    refine .realigned i o _ hi ho (key a1 a2 a3 a4 a5 a6 _ a8.1 a8.2.1 a8.2.2.1 a8.2.2.2 a9.1 a9.2.1 a9.2.2.1 a9.2.2.2) r hc ?_
    rw [a8.2.2.2]
    simpa using a7

theorem scale_positive (ref deg : AudioSignal ℝ) :
    ∃ g > 0, (scaleToMatchSpl ref deg).data = deg.data.map (g * ·) := by
  refine ⟨Flt.powf 10.0 ((soundPressureLevel ref.data - soundPressureLevel deg.data) / 20.0), ?_, ?_⟩
  · rw [real_powf]
    exact Real.rpow_pos_of_pos (by rw [real_sci]; norm_num) _
  · unfold scaleToMatchSpl
    exact List.map_congr_left fun _ _ => mul_comm _ _

/-- A time in frames, times the frame size, is bounded by the length of the signal. -/
theorem columns_mul_le {len W hop c : ℕ} (hw : W ≤ len) (hh : 0 < hop) (hW : W ≤ 7 * hop) (hc : c ≤ numColumns len W hop) :
    c * W ≤ 7 * len := by
  have h1 : (len - W) / hop * hop ≤ len - W := Nat.div_mul_le_self _ _
  have h2 : c * W ≤ (1 + (len - W) / hop) * W := Nat.mul_le_mul_right _ hc
  have h3 : (len - W) / hop * W ≤ (len - W) / hop * (7 * hop) := Nat.mul_le_mul_left _ hW
  rw [Nat.add_mul] at h2
  rw [Nat.mul_left_comm] at h3
  omega

/-- C71: every reported patch can be traced back to the samples.  The degraded signal is delayed and scaled by a positive factor that
gives it the level of the reference; both signals have a prepared spectrogram; and a reported patch is silent, or compares a stretch
of these spectrograms, or a stretch of the signals aligned once more, whichever of the two is better. -/
theorem C71_origin {p : Profile} {pad : ℕ → ℕ} (hpad : ∀ n, 1 ≤ n → n ≤ 2 ^ 63 → nextPowTwo p n = .ok (pad n))
    {m m' : Manager ℝ} {ref deg : AudioSignal ℝ} {res : SimilarityResult ℝ} (h0 : 0 < m.filterBank.minFreq)
    (h1 : m.filterBank.minFreq < upperLimit m.numBands ref.sampleRate) (hsr : ref.sampleRate = deg.sampleRate)
    (h101 : 101 ≤ ref.sampleRate) (h32 : ref.sampleRate < 4294967296) (hpc : m.patchCreator = .vad 30 ∨ m.patchCreator = .image 20)
    (hlen : ref.data.length + deg.data.length < 2 ^ 56) (hdeg : 2 ≤ deg.data.length)
    (h : m.computeResults p ref deg = .ok (m', res)) :
    ∃ (z : ℤ) (g : ℝ) (y : List ℝ) (c d : ℕ) (A B : ℕ → ℕ → ℝ), IsDelay pad ref.data deg.data z ∧ 0 < g ∧
      y = (shift z deg.data).map (g * ·) ∧
      ((∃ x ∈ ref.data, x ≠ 0) → (∃ x ∈ shift z deg.data, x ≠ 0) → rms y = rms ref.data) ∧
      ArePrepared m.numBands ref.sampleRate m.filterBank.minFreq (upperLimit m.numBands ref.sampleRate) (windowSamples ref.sampleRate)
        (windowSamples ref.sampleRate / 4) c d ref.data y A B ∧
      ∀ q ∈ res.patchSims, Setting.Origin ⟨pad, m.numBands, ref.sampleRate, m.filterBank.minFreq,
        upperLimit m.numBands ref.sampleRate, windowSamples ref.sampleRate, windowSamples ref.sampleRate / 4,
        m.patchCreator.patchSize, c, d, ref.data, y, A, B⟩ q := by
  have hnb : 0 < m.numBands := by
    have h5 := (C05_shapes h).1
    obtain ⟨_, _, _, ⟨st⟩⟩ := computeResults_stages h
    rw [← h5]
    have := st.vn
    match hq : res.fvnsim, this with
    | [], this => exact absurd this (by simp [meanOpt])
    | _ :: _, _ => simp
  obtain ⟨al, lag, hal, ⟨st⟩⟩ := computeResults_stages h
  obtain ⟨w1, w2, n1, n2, h5, h6⟩ := st.shapes
  obtain ⟨_, h30⟩ := st.sorted_ix hpc (by omega)
  obtain ⟨f1, f2, f3⟩ := window_facts (sr := ref.sampleRate) (by omega) h32
  have hW8 : 8 ≤ windowSamples ref.sampleRate := by unfold windowSamples; omega
  have hfr := frame_eq (AnalysisWindow.mk' ref.sampleRate 0.25 0.08 : AnalysisWindow ℝ) rfl ref.sampleRate
  have hP : 20 ≤ m.patchCreator.patchSize ∧ m.patchCreator.patchSize ≤ 30 := by
    rcases hpc with e | e <;> rw [e] <;> simp [PatchCreator.patchSize]
  have hW7 : windowSamples ref.sampleRate ≤ 7 * (windowSamples ref.sampleRate / 4) := by omega
  have hsz := st.hsr
  have hsz2 := st.hsd
  have hst := finelyAlign_steps st.fine
  have hprep := st.prep
  have hfound := st.found
  have hcr := st.created
  have hg1 := globallyAlign_length hal
  rw [hfr] at hfound
  rw [st.minFreq1] at hprep
  rw [st.minFreq2] at hst
  have hbig : 29 ≤ ref.data.length := by
    have h7 := h30
    rw [h5, f1, f2] at h7
    unfold numColumns at h7
    have h8 : 29 ≤ (ref.data.length - windowSamples ref.sampleRate) / (windowSamples ref.sampleRate / 4) := by omega
    rw [Nat.le_div_iff_mul_le (by omega)] at h8
    omega
  obtain ⟨z, hz, hgz⟩ := C70_delay p hpad (ref := ref) (deg := deg) (by omega) hdeg (by omega) (by omega)
  rw [hal] at hgz
  obtain ⟨rfl, rfl⟩ : al = ⟨shift z deg.data, deg.sampleRate⟩ ∧ lag = (z : ℝ) / deg.sampleRate := by
    simpa using hgz
  obtain ⟨g, hg, hgd⟩ := scale_positive ref ⟨shift z deg.data, deg.sampleRate⟩
  have hsc : (scaleToMatchSpl ref ⟨shift z deg.data, deg.sampleRate⟩).sampleRate = deg.sampleRate := rfl
  have hscl : (scaleToMatchSpl ref ⟨shift z deg.data, deg.sampleRate⟩).data.length = (shift z deg.data).length := by
    rw [hgd, List.length_map]
  have hAP := arePrepared (by rw [hsc, hsr]) hsz (by rw [hscl]; exact hsz2) st.hhop st.hsize h0 h1 hprep
  rw [f1, f2] at hAP
  refine ⟨z, g, (scaleToMatchSpl ref ⟨shift z deg.data, deg.sampleRate⟩).data, st.refM.ncols, st.degM.ncols, st.refM.at, st.degM.at,
    hz, hg, hgd, fun a b => (C13_level_matching ref ⟨shift z deg.data, deg.sampleRate⟩ a b).2.2.2, hAP, fun q hq => ?_⟩
  obtain ⟨k, hk, rfl⟩ := List.getElem_of_mem hq
  have hk' : k < st.coarse.length := by rw [hst.length_eq]; exact hk
  obtain ⟨c1, c2⟩ := createPatches_ok st.created w1
  have hdl : st.degM.ncols ≤ (shift z deg.data).length + 1 := by
    rw [h6, Nat.add_comm]; exact numColumns_le
  obtain ⟨ch, ch1, ch2, ch3, ch4, ch5⟩ := C32_in_order hfound c1 (fun q hq => (c2 q hq).2.2) w2
    (by unfold usizeMod; dsimp only at hg1; omega)
  obtain ⟨r, x, pm, i, e1, e2, e3, e4, e5, e6, e7⟩ := ch5 k hk'
  rw [List.getElem?_eq_getElem hk'] at e1
  cases e1
  have hstep : FineStep p m.numBands m.filterBank.minFreq ref (scaleToMatchSpl ref ⟨shift z deg.data, deg.sampleRate⟩)
    (AnalysisWindow.mk' ref.sampleRate 0.25 0.08) st.coarse[k] res.patchSims[k] := hst.get hk' hk
  generalize st.coarse[k] = r at *
  generalize res.patchSims[k] = q at *
  have hpi : pm ∈ st.patches := List.mem_of_getElem? e3
  have hslice : st.refM.sliceCols i (i + m.patchCreator.patchSize) = .ok pm := by
    obtain ⟨pm', j1, j2⟩ := mapE_ok_get hcr e4
    rw [e3] at j2; cases j2; exact j1
  obtain ⟨s1, s2, s3, s4, s5⟩ := sliceCols_ok hslice
  simp only [real_ofNat] at e6 e7
  rw [f1] at e5 e6 e7
  have e7' : r.refEnd = (i + m.patchCreator.patchSize) * ((windowSamples ref.sampleRate : ℝ) / 4 / ref.sampleRate) := by
    rw [e7]; ring
  cases x with
  | none =>
    have e5 : Unmatched r := e5
    cases hstep with
    | unmatched a1 a2 => exact .silent i s2 e6 e7' e5
    | kept a0 =>
      exfalso
      rw [e5.start, e5.stop] at a0
      simp [real_eq] at a0
    | replaced a0 =>
      exfalso
      rw [e5.start, e5.stop] at a0
      simp [real_eq] at a0
  | some o =>
    have e5 : MatchedAt p st.degM pm _ _ o r := e5
    have ho : o < st.degM.ncols := ch4 o (List.mem_filterMap.mpr ⟨some o, List.mem_of_getElem? e2, rfl⟩)
    obtain ⟨n, k6, k7, k8, k9, k10⟩ := e5.scores
    have hpw := c2 pm hpi
    have hwin := window_wf st.degM o pm.ncols
    have hscored := scored_of_measure hpw.1 hwin.1 k6 k8 k9 k10 k7
    rw [hpw.2.1, n1, hpw.2.2] at hscored
    refine origin_of_step (S := ⟨pad, m.numBands, ref.sampleRate, m.filterBank.minFreq,
        upperLimit m.numBands ref.sampleRate, windowSamples ref.sampleRate, windowSamples ref.sampleRate / 4,
        m.patchCreator.patchSize, st.refM.ncols, st.degM.ncols, ref.data, _, st.refM.at, st.degM.at⟩) hpad
      (deg := scaleToMatchSpl ref ⟨shift z deg.data, deg.sampleRate⟩) (i := i) (o := o) h0 h1 hsr (by omega) st.hhop rfl rfl rfl rfl f1.symm f2.symm rfl rfl (by rw [f1]; exact hW8) hP.1 s2 ho
      ?_ ?_ ⟨e6, e7', ?_, ?_, ?_⟩ hstep
    · rw [f1]
      have := columns_mul_le (c := i + m.patchCreator.patchSize) hsz st.hhop (by rw [f1, f2]; exact hW7) (by rw [← h5]; exact s2)
      rw [f1] at this
      show (i + m.patchCreator.patchSize) * _ ≤ _
      omega
    · rw [f1]
      have a1 := columns_mul_le (c := o) hsz2 st.hhop (by rw [f1, f2]; exact hW7) (by rw [← h6]; exact ho.le)
      rw [f1] at a1
      show (o + m.patchCreator.patchSize) * _ ≤ _
      have a2 : m.patchCreator.patchSize * windowSamples ref.sampleRate ≤ 30 * windowSamples ref.sampleRate :=
        Nat.mul_le_mul_right _ hP.2
      rw [f1] at hsz
      dsimp only at hg1 a1
      rw [Nat.add_mul]
      omega
    · exact e5.start
    · rw [e5.stop]
      show (o : ℝ) * (_ / 4 / _) + _ / 4 / _ * (m.patchCreator.patchSize : ℝ) = (o + m.patchCreator.patchSize) * (_ / 4 / _)
      ring
    · refine hscored.congr hnb (fun b hb j hj => ?_) (fun b hb j hj => ?_)
      · exact sliceCols_at w1 hslice (by rw [n1]; exact hb) (by simpa using hj)
      · exact window_at w2 (by rw [n2]; exact hb) hj

/-- C71, weights: of a patch taken from the coarse alignment as many frames are counted as are compared, but of a realigned one three
or four more. -/
theorem C71_overcount {S : Setting} {i o n : ℕ} {q : PatchSim ℝ} (hs : 0 < S.sr) (hh : 0 < S.hop) (hW : S.W = 4 * S.hop) :
    (S.Coarse i o q → q.frames S.frame = S.P) ∧
    (S.Realigned i o n q → q.frames S.frame = n + 3 ∨ q.frames S.frame = n + 4) := by
  have hs' : (0 : ℝ) < S.sr := by exact_mod_cast hs
  have hh' : (0 : ℝ) < S.hop := by exact_mod_cast hh
  have hf : S.frame = S.hop / S.sr := by unfold Setting.frame; rw [hW]; push_cast; ring
  constructor
  · intro h
    unfold PatchSim.frames
    rw [h.refEnd, h.refStart, ← sub_mul, mul_div_cancel_right₀ _ (by rw [hf]; positivity), add_sub_cancel_left]
    exact Nat.ceil_natCast _
  · rintro ⟨u, v, z, off, L, A, B, _, _, _, _, _, hp, _, _, _, h1, _⟩
    obtain ⟨h2, h3, _⟩ := hp
    have hl : (cut u off (off + L)).length = L := by simp [cut]
    rw [hl, hW] at h2 h3
    have hq : (q.refEnd - q.refStart) / S.frame = (L : ℝ) / S.hop := by
      rw [h1, hf, add_sub_cancel_left]; field_simp
    have hL : (L - 4 * S.hop) / S.hop + 4 = L / S.hop := by
      conv_rhs => rw [show L = (L - 4 * S.hop) + 4 * S.hop by omega]
      rw [Nat.add_mul_div_right _ _ hh]
    have hn : n + 3 = L / S.hop := by omega
    have hd := Nat.div_add_mod L S.hop
    have hm := Nat.mod_lt L hh
    unfold PatchSim.frames
    rw [hq]
    by_cases h0 : L % S.hop = 0
    · left
      rw [hn, show (L : ℝ) / S.hop = ((L / S.hop : ℕ) : ℝ) by
        rw [div_eq_iff hh'.ne']
        have : L = L / S.hop * S.hop := by rw [Nat.mul_comm]; omega
        exact_mod_cast this]
      exact Nat.ceil_natCast _
    · right
      rw [Nat.ceil_eq_iff (by omega), show n + 4 = L / S.hop + 1 by omega, Nat.add_sub_cancel, lt_div_iff₀ hh', div_le_iff₀ hh']
      constructor
      · have : L / S.hop * S.hop < L := by rw [Nat.mul_comm]; omega
        exact_mod_cast this
      · have : L ≤ (L / S.hop + 1) * S.hop := by rw [Nat.add_mul, Nat.mul_comm]; omega
        exact_mod_cast this

end Visqol
