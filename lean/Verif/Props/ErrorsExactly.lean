import Verif.Props.TimesRounded
import Verif.Props.Manager
import Verif.Props.Patches
import Verif.Props.Loading
import Verif.Props.Witness
import Verif.Props.DelayRounded
import Verif.Spec.Rejection

/-! # Exactly which errors a comparison returns (C92) -/

set_option linter.unusedSectionVars false

namespace Visqol

section
variable {F : Type} [Flt F] [RustFft F]

/-- Alignment gives up only for empty signals, if the number found by `maxByAbs` is found again. -/
theorem globallyAlign_none {p : Profile} {ref deg : AudioSignal F} (n : Nat) (h : globallyAlign p ref deg = .ok none)
    (H : ∀ (l : List F) m, n ≤ l.length → maxByAbs l = .ok (some m) → m ∈ l ∧ Flt.eq m m = true)
    (hr : ref.data.length ≤ 2 ^ 63) (hd : deg.data.length ≤ 2 ^ 63) :
    ref.data = [] ∨ deg.data = [] ∨ max ref.data.length deg.data.length < n := by
  by_contra hcon
  push Not at hcon
  obtain ⟨h1, h2, h3⟩ := hcon
  have l1 : 1 ≤ ref.data.length := List.length_pos_iff.mpr h1
  have l2 : 1 ≤ deg.data.length := List.length_pos_iff.mpr h2
  unfold globallyAlign at h
  obtain ⟨e1, he1, hl1⟩ := calculateUpperEnv_total (p := p) h1 hr
  obtain ⟨e2, he2, hl2⟩ := calculateUpperEnv_total (p := p) h2 hd
  rw [he1, ok_bind] at h
  dsimp only at h
  rw [he2, ok_bind] at h
  dsimp only at h
  obtain ⟨o, ho, h⟩ := bind_ok h
  cases o with
  | some lag =>
    dsimp only at h
    split at h
    · cases h
    · split at h <;> obtain ⟨_, _, h⟩ := bind_ok h <;> cases h
  | none =>
    unfold calculateBestLag at ho
    obtain ⟨ml, hml, ho⟩ := bind_ok ho
    obtain ⟨v, _, ho⟩ := bind_ok ho
    obtain ⟨st, _, ho⟩ := bind_ok ho
    obtain ⟨neg, _, ho⟩ := bind_ok ho
    obtain ⟨pos, hpos, ho⟩ := bind_ok ho
    have hpl := sliceM_ok_length hpos
    have hml' : max e1.length e2.length - 1 = ml := by
      rw [usub_of_le (by omega)] at hml
      cases hml; rfl
    have hlen : max ref.data.length deg.data.length ≤ (neg ++ pos).length := by
      rw [List.length_append, hpl]
      omega
    dsimp only at ho
    obtain ⟨b, hb, ho⟩ := bind_ok ho
    cases b with
    | none =>
      cases hc : neg ++ pos with
      | nil => rw [hc, List.length_nil] at hlen; omega
      | cons a l =>
        rw [hc] at hb
        unfold maxByAbs at hb
        obtain ⟨_, _, hb⟩ := bind_ok hb
        cases hb
    | some best =>
      obtain ⟨hm, heq⟩ := H _ _ (h3.trans hlen) hb
      dsimp only at ho
      split at ho
      · rename_i hf
        rw [List.findIdx?_eq_none_iff] at hf
        have := hf best hm
        rw [heq] at this; cases this
      · cases ho

theorem globallyAlign_some {p : Profile} {ref deg al : AudioSignal F} {lag : F} (h : globallyAlign p ref deg = .ok (some (al, lag)))
    (hr : ref.data.length ≤ 2 ^ 63) : ref.data ≠ [] ∧ deg.data ≠ [] := by
  have h1 : ref.data ≠ [] := by
    intro hn
    unfold globallyAlign at h
    rw [hn, calculateUpperEnv_nil] at h
    cases h
  refine ⟨h1, fun hn => ?_⟩
  obtain ⟨env, he, _⟩ := calculateUpperEnv_total (p := p) h1 hr
  unfold globallyAlign at h
  rw [he, hn, calculateUpperEnv_nil] at h
  cases h

/-- If no coarse result makes fine alignment return an error, it returns none. -/
theorem errs_fine_each {P : VisqolError → Prop} {p : Profile} {nb : Nat} {ref deg : AudioSignal F} {w : AnalysisWindow F} :
    ∀ (rs : List (PatchSim F)) (fb : FilterBank F), (∀ r ∈ rs, ∀ fb, Errs P (finelyAlignPatch p nb ref deg w fb r)) →
      Errs P (finelyAlign p nb ref deg w fb rs)
  | [], _, _ => Errs.mk_ok _
  | r :: rs, fb, h => by
    unfold finelyAlign
    exact Errs.mk_bind (h r (by simp) fb) fun x => Errs.mk_bind (errs_fine_each rs _ fun r hr => h r (by simp [hr])) fun _ => Errs.mk_ok _

/-- The errors of a comparison, stage by stage. -/
theorem compute_error {p : Profile} {m : Manager F} {ref deg : AudioSignal F} {e : VisqolError}
    (h : m.computeResults p ref deg = .error (.err e))
    (H : ∀ al lag, globallyAlign p ref deg = .ok (some (al, lag)) → ∀ (refM degM : Mat F) ix patches coarse fb, refM.WF → degM.WF →
      refM.ncols = numColumns ref.data.length (AnalysisWindow.mk' (F := F) ref.sampleRate 0.25 0.08).size (AnalysisWindow.mk' (F := F) ref.sampleRate 0.25 0.08).hop →
      degM.ncols = numColumns al.data.length (AnalysisWindow.mk' (F := F) ref.sampleRate 0.25 0.08).size (AnalysisWindow.mk' (F := F) ref.sampleRate 0.25 0.08).hop →
      m.patchCreator.indices p refM.ncols ref (AnalysisWindow.mk' (F := F) ref.sampleRate 0.25 0.08) = .ok ix →
      createPatches m.patchCreator.patchSize refM ix = .ok patches →
      findMostOptimalDegPatches p patches ix degM (Flt.ofNat (AnalysisWindow.mk' (F := F) ref.sampleRate 0.25 0.08).size *
        (AnalysisWindow.mk' (F := F) ref.sampleRate 0.25 0.08).overlap / Flt.ofNat ref.sampleRate) (wrapI32 m.searchWindow) = .ok coarse →
      Errs (fun _ => False) (finelyAlign p m.numBands ref (scaleToMatchSpl ref al) (AnalysisWindow.mk' ref.sampleRate 0.25 0.08) fb coarse)) :
    (globallyAlign p ref deg = .ok none ∧ e = .failedToAlignSignals) ∨
    ∃ al lag, globallyAlign p ref deg = .ok (some (al, lag)) ∧
      ((ref.data.length < (AnalysisWindow.mk' (F := F) ref.sampleRate 0.25 0.08).size ∧
        e = .tooFewSamples ref.data.length (AnalysisWindow.mk' (F := F) ref.sampleRate 0.25 0.08).size) ∨
       ((AnalysisWindow.mk' (F := F) ref.sampleRate 0.25 0.08).size ≤ ref.data.length ∧
        al.data.length < (AnalysisWindow.mk' (F := F) ref.sampleRate 0.25 0.08).size ∧
        e = .tooFewSamples al.data.length (AnalysisWindow.mk' (F := F) ref.sampleRate 0.25 0.08).size) ∨
       ((AnalysisWindow.mk' (F := F) ref.sampleRate 0.25 0.08).size ≤ ref.data.length ∧
        (AnalysisWindow.mk' (F := F) ref.sampleRate 0.25 0.08).size ≤ al.data.length ∧ ∃ n, m.patchCreator = .image n ∧
        numColumns ref.data.length (AnalysisWindow.mk' (F := F) ref.sampleRate 0.25 0.08).size
          (AnalysisWindow.mk' (F := F) ref.sampleRate 0.25 0.08).hop < n + n / 2 ∧
        e = .referenceSpectrogramTooSmall (numColumns ref.data.length (AnalysisWindow.mk' (F := F) ref.sampleRate 0.25 0.08).size
          (AnalysisWindow.mk' (F := F) ref.sampleRate 0.25 0.08).hop) (n - n / 2))) := by
  unfold Manager.computeResults at h
  rcases bind_error h with h | ⟨o, ho, h⟩
  · exact ((errs_globallyAlign (P := fun _ => False) p ref deg).out e h).elim
  cases o with
  | none => cases h; exact .inl ⟨ho, rfl⟩
  | some t =>
  obtain ⟨al, lag⟩ := t
  refine .inr ⟨al, lag, ho, ?_⟩
  have H := H al lag ho
  dsimp only at h
  generalize AnalysisWindow.mk' (F := F) ref.sampleRate 0.25 0.08 = w at *
  rcases bind_error h with h | ⟨x, _, h⟩
  swap
  · cases h
  unfold calculateSimilarity at h
  dsimp only at h
  have hsl : (scaleToMatchSpl ref al).data.length = al.data.length := by simp [scaleToMatchSpl]
  rcases bind_error h with h | ⟨⟨fb1, rs⟩, h1, h⟩
  · have := (errs_build (P := fun e => ref.data.length < w.size ∧ e = .tooFewSamples ref.data.length w.size) (fun hl => ⟨hl, rfl⟩)).out e h
    exact .inl this
  obtain ⟨a1, a2, a3, a4, a5⟩ := buildSpectrogram_ok h1
  rcases bind_error h with h | ⟨⟨fb2, ds⟩, h2, h⟩
  · have := (errs_build (P := fun e => al.data.length < w.size ∧ e = .tooFewSamples al.data.length w.size)
      (fun hl => by rw [hsl] at hl ⊢; exact ⟨hl, rfl⟩)).out e h
    exact .inr (.inl ⟨a1, this⟩)
  obtain ⟨b1, _, _, b4, _⟩ := buildSpectrogram_ok h2
  rw [hsl] at b1
  rcases bind_error h with h | ⟨⟨rm, dm⟩, h3, h⟩
  · exact ((errs_prepare (P := fun _ => False) _ _).out e h).elim
  dsimp only at h3 h
  rw [a4, b4] at h3
  obtain ⟨s1, s2, _, _, s5, s6⟩ := prepare_shape h3 (spectroMat_wf _ _ _ _) (spectroMat_wf _ _ _ _)
  have s5 : rm.ncols = numColumns ref.data.length w.size w.hop := s5
  have s6 : dm.ncols = numColumns al.data.length w.size w.hop := by rw [s6]; simp [spectroMat, scaleToMatchSpl]
  rcases bind_error h with h | ⟨ix, h4, h⟩
  · refine .inr (.inr ⟨a1, b1, ?_⟩)
    have := (errs_indices (P := fun e => ∃ n, m.patchCreator = .image n ∧ rm.ncols < n + n / 2 ∧
      e = .referenceSpectrogramTooSmall rm.ncols (n - n / 2)) (fun n h1 h2 => ⟨n, h1, h2, rfl⟩)).out e h
    rwa [s5] at this
  rcases bind_error h with h | ⟨ps, h5, h⟩
  · exact ((errs_createPatches (P := fun _ => False) _ _ _).out e h).elim
  have hnil : ix = [] → ps = [] := by
    intro h0; subst h0; unfold createPatches mapE at h5; cases h5; rfl
  rcases bind_error h with h | ⟨co, h6, h⟩
  · exact ((errs_find (P := fun _ => False) _ _ _ _ _ _ hnil).out e h).elim
  rcases bind_error h with h | ⟨fi, _, h⟩
  · exact ((H rm dm ix ps co fb2 s1 s2 s5 s6 h4 h5 h6).out e h).elim
  refine (Errs.out (P := fun _ => False) ?_ e h).elim
  exact Errs.mk_bind (errs_perPatchMean ..) fun _ => Errs.mk_bind (errs_perPatchStd ..) fun _ =>
    Errs.mk_bind (errs_perPatchMean ..) fun _ => Errs.mk_bind (errs_predict ..) fun _ =>
    Errs.mk_bind (Errs.mk_expect _) fun _ => Errs.mk_ok _

/-- Writing the errors of `compute_error` as the specification does. -/
theorem rejection_of {fb : Bool} {sr rl dl : Nat} {e : VisqolError}
    (h : (rl < windowSamples sr ∧ e = .tooFewSamples rl (windowSamples sr)) ∨
      (windowSamples sr ≤ rl ∧ dl < windowSamples sr ∧ e = .tooFewSamples dl (windowSamples sr)) ∨
      (windowSamples sr ≤ rl ∧ windowSamples sr ≤ dl ∧ fb = true ∧ columnCount sr rl < 30 ∧
        e = .referenceSpectrogramTooSmall (columnCount sr rl) 10)) : rejection fb sr rl dl = some e := by
  unfold rejection
  rcases h with ⟨h, rfl⟩ | ⟨h1, h2, rfl⟩ | ⟨h1, h2, h3, h4, rfl⟩
  · rw [if_pos h]
  · rw [if_neg (by omega), if_pos h2]
  · rw [if_neg (by omega), if_neg (by omega), if_pos (by simp [h3, h4])]

end

/-! ## In floating point -/

section
open Ieee
variable {F : Type} [Flt F] [Ieee F]

/-- The number `maxByAbs` finds among two or more is no NaN: it was compared. -/
theorem maxByAbs_found {l : List F} {m : F} (hl : 2 ≤ l.length) (h : maxByAbs l = .ok (some m)) : m ∈ l ∧ Flt.eq m m = true := by
  match l, hl with
  | a :: b :: l, _ =>
  unfold maxByAbs at h
  obtain ⟨m', hm, h⟩ := bind_ok h
  cases h
  have hstep : ∀ x y t : F, (do
      let c ← expect (Flt.partialCmp (Flt.abs x) (Flt.abs y))
      .ok (if c = .gt then x else y) : M F) = .ok t → (t = x ∨ t = y) ∧ Flt.eq t t = true := by
    intro x y t ht
    obtain ⟨c, hc, ht⟩ := bind_ok ht
    have hc := expect_ok hc
    have hx : val x ≠ .nan := fun hn => by rw [partialCmp_nan (.inl (nan_abs hn))] at hc; cases hc
    have hy : val y ≠ .nan := fun hn => by rw [partialCmp_nan (.inr (nan_abs hn))] at hc; cases hc
    have heq : ∀ z : F, val z ≠ .nan → Flt.eq z z = true := by
      intro z hz
      have := isNaN_false.mpr hz
      unfold Flt.isNaN at this
      simpa using this
    split at ht <;> cases ht
    · exact ⟨.inl rfl, heq _ hx⟩
    · exact ⟨.inr rfl, heq _ hy⟩
  unfold foldE at hm
  obtain ⟨s, hs, hm⟩ := bind_ok hm
  refine foldE_inv (fun t => t ∈ a :: b :: l ∧ Flt.eq t t = true) ?_ ?_ hm
  · intro y hy t t' ht h'
    obtain ⟨h1, h2⟩ := hstep t y t' h'
    refine ⟨?_, h2⟩
    rcases h1 with rfl | rfl
    · exact ht.1
    · simp [hy]
  · obtain ⟨h1, h2⟩ := hstep a b s hs
    refine ⟨?_, h2⟩
    rcases h1 with rfl | rfl <;> simp

/-- The offset used by fine alignment is at most the lag. -/
theorem lag_offset {z : ℤ} {sr : ℕ} (h0 : 0 < sr) (hu32 : sr < 4294967296) (hz : z.natAbs ≤ 137438953474) :
    Flt.toUsize (Flt.ofInt z / Flt.ofNat sr * Flt.ofNat sr : F) ≤ z.toNat := by
  have hs0 : (0 : ℝ) < sr := by exact_mod_cast h0
  have hs1 : (1 : ℝ) ≤ sr := by exact_mod_cast h0
  have hs2 : (sr : ℝ) ≤ 4294967296 := by exact_mod_cast hu32.le
  have hs3 : Is (Flt.ofNat sr : F) sr := val_nat (by omega)
  have hza : |z| ≤ 2 ^ 53 := by rw [Int.abs_eq_natAbs]; omega
  have h5 : |(z : ℝ)| ≤ 137438953474 := by
    have h4 : |z| ≤ 137438953474 := by rw [Int.abs_eq_natAbs]; omega
    have h5 : ((|z| : ℤ) : ℝ) ≤ 137438953474 := by exact_mod_cast h4
    rwa [Int.cast_abs] at h5
  have h6 := abs_le.mp h5
  obtain ⟨y, hy, ey⟩ := rnd_samples F (x := (z : ℝ) / sr) hs1 hs2 (by
    rw [abs_div, abs_of_pos hs0, div_mul_cancel₀ _ hs0.ne']
    norm_num only
    linarith only [h5])
  have hzi : Is (Flt.ofInt z : F) z := by
    show val _ = _
    rw [val_ofInt, rnd_int F hza]
  have hiy : Is (Flt.ofInt z / Flt.ofNat sr : F) y := (Is.div hzi hs3 hs0.ne').trans hy
  have ey' : |y * sr - z| ≤ 1 / 4000 := by
    rw [show y * sr - (z : ℝ) = (y - z / sr) * sr by
      rw [sub_mul, div_mul_cancel₀ _ hs0.ne'], abs_mul, abs_of_pos hs0]
    exact ey
  have ey' := abs_le.mp ey'
  obtain ⟨v, hv, ev⟩ := rnd_samples F (x := y * sr) (s := 1) le_rfl (by norm_num) (by
    rw [mul_one, abs_le]
    norm_num only
    constructor <;> linarith only [ey'.1, ey'.2, h6.1, h6.2])
  rw [mul_one] at ev
  have ev := abs_le.mp ev
  have hiv : Is (Flt.ofInt z / Flt.ofNat sr * Flt.ofNat sr : F) v := (Is.mul hiy hs3).trans hv
  rcases le_or_gt v 0 with hv0 | hv0
  · rw [toUsize_nonpos' hiv hv0]; exact Nat.zero_le _
  · rw [toUsize_fin hiv hv0.le (by linarith only [ev.2, ey'.2, h6.2])]
    have hlt : v < (z : ℝ) + 1 := by linarith only [ev.2, ey'.2]
    have hf := Nat.floor_le hv0.le
    have h7 : ((⌊v⌋₊ : ℤ) : ℝ) < ((z + 1 : ℤ) : ℝ) := by push_cast; linarith only [hf, hlt]
    have h8 : (⌊v⌋₊ : ℤ) < z + 1 := by exact_mod_cast h7
    omega

variable [RustFft F]

/-- Fine alignment of a patch of at least five windows with an equally long one never returns an error: it succeeds or panics. -/
theorem finePatch_never {p : Profile} {nb : Nat} {ref deg : AudioSignal F} {w : AnalysisWindow F} {fb : FilterBank F}
    {r : PatchSim F} {a b c d : ℝ}
    (hsr : ref.sampleRate = deg.sampleRate) (h0 : 0 < ref.sampleRate) (hu32 : ref.sampleRate < 4294967296) (h4 : 4 ≤ w.size)
    (ha : Is r.refStart a) (hb : Is r.refEnd b) (hc : Is r.degStart c) (hd : Is r.degEnd d) (ha0 : 0 ≤ a) (hab : a ≤ b) (hc0 : 0 ≤ c)
    (hcd : c ≤ d) (hbs : b * ref.sampleRate ≤ 137438953472) (hds : d * ref.sampleRate ≤ 137438953472)
    (hl : ref.data.length ≤ 2 ^ 37) (hl2 : deg.data.length ≤ 2 ^ 37)
    (h5 : 5 * (w.size : ℝ) - 1 / 100 ≤ (b - a) * ref.sampleRate)
    (h6 : |(b - a) * ref.sampleRate - (d - c) * ref.sampleRate| ≤ 1 / 100) :
    Errs (fun _ => False) (finelyAlignPatch p nb ref deg w fb r) := by
  refine ⟨fun e he => ?_, (errs_finePatch (P := fun _ => True) trivial fun _ _ => trivial).ext⟩
  unfold finelyAlignPatch at he
  split at he
  · cases he
  rcases bind_error he with he | ⟨ra, h1, he⟩
  · exact (errs_sliceSignal (P := fun _ => False) _ _ _).out e he
  rcases bind_error he with he | ⟨da, h2, he⟩
  · exact (errs_sliceSignal (P := fun _ => False) _ _ _).out e he
  obtain ⟨l1, l2, s1⟩ := sliceSignal_length_ieee h1 ha hb ha0 hab hu32 (by norm_num only; linarith only [hbs]) (hl.trans (by norm_num))
  obtain ⟨m1, m2, s2⟩ := sliceSignal_length_ieee h2 hc hd hc0 hcd (hsr ▸ hu32) (by rw [← hsr]; norm_num only; linarith only [hds]) (hl2.trans (by norm_num))
  rw [← hsr] at m1 m2
  have h6 := abs_le.mp h6
  have hs0 : (0 : ℝ) ≤ ref.sampleRate := Nat.cast_nonneg _
  have q1 : 5 * w.size ≤ ra.data.length + 1 := by
    have : (((5 * w.size : ℕ)) : ℝ) < ((ra.data.length + 2 : ℕ) : ℝ) := by push_cast; linarith only [l2, h5]
    have := Nat.cast_lt.mp this
    omega
  have q2 : ra.data.length ≤ da.data.length + 2 := by
    have : ((ra.data.length : ℕ) : ℝ) < ((da.data.length + 3 : ℕ) : ℝ) := by push_cast; linarith only [l1, m2, h6.2]
    have := Nat.cast_lt.mp this
    omega
  have q3 : ra.data.length ≤ 137438953474 := by
    have hbb : (b - a) * ref.sampleRate ≤ b * ref.sampleRate := mul_le_mul_of_nonneg_right (by linarith only [ha0]) hs0
    have : (ra.data.length : ℝ) ≤ ((137438953474 : ℕ) : ℝ) := by push_cast; linarith only [l1, hbb, hbs]
    exact_mod_cast this
  have q4 : da.data.length ≤ 137438953474 := by
    have hbb : (d - c) * ref.sampleRate ≤ d * ref.sampleRate := mul_le_mul_of_nonneg_right (by linarith only [hc0]) hs0
    have : (da.data.length : ℝ) ≤ ((137438953474 : ℕ) : ℝ) := by push_cast; linarith only [m1, hbb, hds]
    exact_mod_cast this
  rcases bind_error he with he | ⟨o, h3, he⟩
  · exact (errs_alignTruncate (P := fun _ => False) _ _ _).out e he
  cases o with
  | none =>
    unfold alignAndTruncate at h3
    obtain ⟨o, ho, h3⟩ := bind_ok h3
    cases o with
    | none =>
      rcases globallyAlign_none 2 ho (fun _ _ => maxByAbs_found) (by omega) (by omega) with h | h | h
      · rw [h] at q1; simp at q1; omega
      · rw [h] at q2; simp at q2; omega
      · omega
    | some t =>
      dsimp only at h3
      split at h3
      · obtain ⟨_, _, h3⟩ := bind_ok h3
        obtain ⟨_, _, h3⟩ := bind_ok h3
        cases h3
      · split at h3
        · obtain ⟨_, _, h3⟩ := bind_ok h3
          cases h3
        · cases h3
  | some t =>
    obtain ⟨raa, daa, lag⟩ := t
    obtain ⟨g1, g2, g3, al, off, g4, _, _, g5, g6⟩ := C37_equal_length (by rw [s1, s2, hsr]) h3
    have hW : w.size ≤ raa.data.length := by
      obtain ⟨_, ⟨ht1, ht⟩ | ⟨z, hz0, hz, ht, hz2⟩⟩ := C39_only_shifts g4
      · have : off = 0 := by
          rcases g6 with g6 | g6
          · exact g6
          · rw [g6, ht, s1]
            have hs3 : Is (Flt.ofNat ref.sampleRate : F) ref.sampleRate := val_nat (by omega)
            obtain ⟨v, hv, ev⟩ := rnd_samples F (x := 0) (s := 1) le_rfl (by norm_num) (by norm_num)
            refine toUsize_nonpos' (x := v) ?_ ?_
            · have := Is.mul (val_0 (F := F)) hs3
              rw [zero_mul] at this
              exact this.trans hv
            · exact rnd_upper (a := (0.0 : F)) val_0 hv le_rfl
        rw [ht1] at g5
        omega
      · have hoff : off ≤ z.toNat := by
          rcases g6 with g6 | g6
          · omega
          · rw [g6, ht, s1, s2, hsr]
            exact lag_offset (by omega) (by omega) (by omega)
        rcases hz2 with ⟨hn, _, hal⟩ | ⟨hp, hal⟩
        · rw [hal, List.length_drop] at g5
          omega
        · rw [hal, List.length_append, List.length_replicate] at g5
          omega
    refine Errs.out (P := fun _ => False) ?_ e he
    refine Errs.mk_bind (errs_build (fun h => by omega)) fun x => Errs.mk_bind (errs_build (fun h => by omega)) fun y =>
        Errs.mk_bind (errs_prepare ..) fun z => Errs.mk_bind (errs_measure ..) fun n => ?_
    split <;> exact Errs.mk_ok _

/-- C92 in floating point: a comparison returns an error only if alignment is impossible (an empty signal, or two signals of a
single sample) or a signal is too short, and then the error names what is too short. -/
theorem C92_rounded {p : Profile} {m : Manager F} {ref deg : AudioSignal F} {e : VisqolError}
    (h : m.computeResults p ref deg = .error (.err e)) (hpc : m.patchCreator = .vad 30 ∨ m.patchCreator = .image 20)
    (h50 : 50 ≤ ref.sampleRate) (hu32 : ref.sampleRate < 4294967296) (hsr : ref.sampleRate = deg.sampleRate)
    (hlen : ref.data.length + deg.data.length < 2147483648) :
    ((ref.data = [] ∨ deg.data = [] ∨ (ref.data.length = 1 ∧ deg.data.length = 1)) ∧ e = .failedToAlignSignals) ∨
    (ref.data ≠ [] ∧ deg.data ≠ [] ∧ ∃ al lag, globallyAlign p ref deg = .ok (some (al, lag)) ∧
      rejection (m.patchCreator == .image 20) ref.sampleRate ref.data.length al.data.length = some e) := by
  obtain ⟨f1, f2, f3⟩ := ieee_window_facts (F := F) h50 hu32
  have hP : 20 ≤ m.patchCreator.patchSize ∧ m.patchCreator.patchSize ≤ 30 := by
    rcases hpc with h | h <;> rw [h] <;> decide
  have hce := compute_error h (by
    intro al lag hal refM degM ix patches coarse fb w1 w2 h5 h6 _ created found
    refine errs_fine_each _ _ fun r hr fb => ?_
    obtain ⟨k, hk, rfl⟩ := List.getElem_of_mem hr
    have hr := List.getElem?_eq_getElem hk
    generalize coarse[k] = r at hr
    obtain ⟨c1, c2⟩ := createPatches_ok created w1
    have hlal := globallyAlign_length hal
    have hals := (C39_only_shifts hal).1
    rw [f1, f2] at h5 h6
    have hcd := @numColumns_le al.data.length (windowSamples ref.sampleRate) (windowSamples ref.sampleRate / 4)
    obtain ⟨e1, ⟨i, hi, e⟩, e3⟩ := C52_coarse_times found c1 (fun q hq => (c2 q hq).2.2) w2 (lt_usizeMod (by omega)) k r hr
    obtain ⟨g1, g2⟩ := createPatches_get created hi
    have hi' : i < refM.ncols := by omega
    rw [h5] at hi'
    have hW2 : windowSamples ref.sampleRate ≤ 2 ^ 30 := by unfold windowSamples; omega
    have hbi := column_bound hu32 f3 hi' (by omega)
    have hbp : m.patchCreator.patchSize * windowSamples ref.sampleRate ≤ 2 ^ 36 := by
      have := Nat.mul_le_mul hP.2 hW2
      omega
    have hbp2 : 20 * windowSamples ref.sampleRate ≤ m.patchCreator.patchSize * windowSamples ref.sampleRate := Nat.mul_le_mul_right _ hP.1
    have hov : (AnalysisWindow.mk' (F := F) ref.sampleRate 0.25 0.08).overlap = 0.25 := rfl
    rw [f1, hov] at e e1 e3
    rcases e3 with e3 | ⟨⟨o, ho, e4⟩, e5⟩
    · unfold finelyAlignPatch
      rw [e3.start, e3.stop, Is.eq (val_0 (F := F)) (val_0 (F := F))]
      simp only [decide_true, Bool.and_self, if_true]
      exact Errs.mk_ok _
    have hs0 : (0 : ℝ) < ref.sampleRate := by
      have : 0 < ref.sampleRate := by omega
      exact_mod_cast this
    obtain ⟨a, b, ha, hb, ha0, hab, ea, eb⟩ := column_times (F := F) (P := m.patchCreator.patchSize) (by omega : 0 < ref.sampleRate) hu32 f3 hW2 (by omega) hbp hbi
    rw [← e] at ha hb
    rw [← e1] at hb
    have ho' := ho
    rw [h6] at ho'
    have hbo := column_bound hu32 f3 ho' (by omega)
    obtain ⟨c, d, hc, hd, hc0, hcd2, ec, ed⟩ := column_times (F := F) (P := m.patchCreator.patchSize) (by omega : 0 < ref.sampleRate) hu32 f3 hW2 (by omega) hbp hbo
    rw [← e4] at hc hd
    rw [← e5] at hd
    have ea := abs_le.mp ea
    have eb := abs_le.mp eb
    have ec := abs_le.mp ec
    have ed := abs_le.mp ed
    have b1 : (i * windowSamples ref.sampleRate : ℝ) ≤ 34359738368 := by exact_mod_cast hbi
    have b2 : (m.patchCreator.patchSize * windowSamples ref.sampleRate : ℝ) ≤ 68719476736 := by exact_mod_cast hbp
    have b3 : (20 * windowSamples ref.sampleRate : ℝ) ≤ m.patchCreator.patchSize * windowSamples ref.sampleRate := by exact_mod_cast hbp2
    have b5 : (o * windowSamples ref.sampleRate : ℝ) ≤ 34359738368 := by exact_mod_cast hbo
    refine finePatch_never (a := a) (b := b) (c := c) (d := d) ?_ (by omega) hu32 (by rw [f1]; exact f3) ha hb hc hd ha0 hab hc0 hcd2 (by linarith only [eb.2, b1, b2])
      (by linarith only [ed.2, b5, b2]) (by omega) ?_ ?_ ?_
    · show _ = al.sampleRate
      omega
    · simp only [scaleToMatchSpl, List.length_map]
      omega
    · rw [f1, sub_mul]
      linarith only [eb.1, ea.2, b3]
    · rw [sub_mul, sub_mul, abs_le]
      constructor <;> linarith only [ea.1, ea.2, eb.1, eb.2, ec.1, ec.2, ed.1, ed.2])
  rcases hce with ⟨h1, h2⟩ | ⟨al, lag, hal, h⟩
  · refine .inl ⟨?_, h2⟩
    rcases globallyAlign_none 2 h1 (fun _ _ => maxByAbs_found) (by omega) (by omega) with h | h | h
    · exact .inl h
    · exact .inr (.inl h)
    · by_cases hr : ref.data = []
      · exact .inl hr
      · by_cases hd : deg.data = []
        · exact .inr (.inl hd)
        · have := List.length_pos_iff.mpr hr
          have := List.length_pos_iff.mpr hd
          exact .inr (.inr ⟨by omega, by omega⟩)
  · right
    have hne := globallyAlign_some hal (by omega)
    refine ⟨hne.1, hne.2, al, lag, hal, rejection_of ?_⟩
    rw [f1, f2] at h
    rcases h with h | h | ⟨h1, h2, n, h3, h4, h5⟩
    · exact .inl h
    · exact .inr (.inl h)
    · have hn : n = 20 := by
        rcases hpc with h | h <;> rw [h] at h3 <;> cases h3
        rfl
      subst hn
      have hcc : numColumns ref.data.length (windowSamples ref.sampleRate) (windowSamples ref.sampleRate / 4) =
        columnCount ref.sampleRate ref.data.length := by unfold numColumns columnCount; omega
      rw [hcc] at h4 h5
      exact .inr (.inr ⟨h1, h2, by rw [h3]; decide, h4, h5⟩)
end

/-! ## In exact arithmetic -/

theorem maxByAbs_found_real {l : List ℝ} {m : ℝ} (hl : 1 ≤ l.length) (h : maxByAbs l = .ok (some m)) : m ∈ l ∧ Flt.eq m m = true := by
  obtain ⟨m', h1, h2, _⟩ := maxByAbs_real l (by intro hn; rw [hn] at hl; simp at hl)
  rw [h] at h2; cases h2
  exact ⟨h1, by simp⟩

/-- Fine alignment of a patch at column `i` with one at column `o` never returns an error: it succeeds, or a slice panics. -/
theorem finePatch_never_real {p : Profile} {nb : Nat} (hnb : 0 < nb) {fb : FilterBank ℝ} {w : AnalysisWindow ℝ} (h2 : 0 < w.hop)
    (h4 : 4 ≤ w.size) {ref deg : AudioSignal ℝ} (hsr : ref.sampleRate = deg.sampleRate) (h0 : 0 < ref.sampleRate) {i o pp : Nat}
    (hpp : 20 ≤ pp) (hl : ref.data.length < 18446744073709551615) (hl2 : deg.data.length < 18446744073709551615)
    (hbi : (i + pp) * w.size < 4611686018427387904) (hbo : (o + pp) * w.size < 4611686018427387904) {r : PatchSim ℝ}
    (e1 : r.refStart = i * ((w.size : ℝ) / 4 / ref.sampleRate)) (e2 : r.refEnd = r.refStart + (w.size : ℝ) / 4 / ref.sampleRate * pp)
    (e3 : r.degStart = o * ((w.size : ℝ) / 4 / ref.sampleRate)) (e4 : r.degEnd = r.degStart + (w.size : ℝ) / 4 / ref.sampleRate * pp) :
    Errs (fun _ => False) (finelyAlignPatch p nb ref deg w fb r) := by
  have hne : (ref.sampleRate : ℝ) ≠ 0 := by positivity
  have inside : ∀ {s out : AudioSignal ℝ} {a b : ℝ} {k : Nat}, s.sampleRate = ref.sampleRate → s.data.length < 18446744073709551615 →
      sliceSignal s a b = .ok out → a = k * ((w.size : ℝ) / 4 / ref.sampleRate) → k * w.size / 4 ≤ s.data.length := by
    intro s out a b k hs hl hslice ha
    have := sliceSignal_inside hslice hl
    rw [ha, hs] at this
    have e : (k : ℝ) * ((w.size : ℝ) / 4 / ref.sampleRate) * ref.sampleRate = ((k * w.size : ℕ) : ℝ) / 4 := by push_cast; field_simp
    rw [e] at this
    have : ((k * w.size : ℕ) : ℝ) < ((4 * (s.data.length + 1) : ℕ) : ℝ) := by push_cast at this ⊢; linarith
    have := Nat.cast_lt.mp this
    omega
  refine ⟨fun e he => ?_, (errs_finePatch (P := fun _ => True) trivial fun _ _ => trivial).ext⟩
  by_cases hin : i * w.size / 4 ≤ ref.data.length ∧ o * w.size / 4 ≤ deg.data.length
  · obtain ⟨fb', r', hok, _⟩ := finelyAlignPatch_total p hnb fb h2 h4 hsr h0 hpp hin.1 hin.2 hbi hbo e1 e2 e3 e4
    rw [hok] at he
    cases he
  · unfold finelyAlignPatch at he
    split at he
    · cases he
    rcases bind_error he with he | ⟨ra, h1, he⟩
    · exact (errs_sliceSignal (P := fun _ => False) _ _ _).out e he
    rcases bind_error he with he | ⟨da, h3, he⟩
    · exact (errs_sliceSignal (P := fun _ => False) _ _ _).out e he
    exact hin ⟨inside rfl hl h1 e1, inside hsr.symm hl2 h3 e3⟩

/-- C92: a comparison returns an error exactly if a signal is empty, or (after alignment) one is too short, and then exactly the error
that says so. -/
theorem C92_exactly {p : Profile} {m : Manager ℝ} {ref deg : AudioSignal ℝ} {e : VisqolError}
    (hpc : m.patchCreator = .vad 30 ∨ m.patchCreator = .image 20) (hnb : 0 < m.numBands)
    (h50 : 50 ≤ ref.sampleRate) (hu32 : ref.sampleRate < 4294967296) (hsr : ref.sampleRate = deg.sampleRate)
    (hlen : ref.data.length + deg.data.length < 2147483648) :
    m.computeResults p ref deg = .error (.err e) ↔
      ((ref.data = [] ∨ deg.data = []) ∧ e = .failedToAlignSignals) ∨
      ∃ al lag, globallyAlign p ref deg = .ok (some (al, lag)) ∧
        rejection (m.patchCreator == .image 20) ref.sampleRate ref.data.length al.data.length = some e := by
  obtain ⟨f1, f2, f3⟩ := window_facts h50 hu32
  have hP : 20 ≤ m.patchCreator.patchSize ∧ m.patchCreator.patchSize ≤ 30 := by
    rcases hpc with h | h <;> rw [h] <;> decide
  have hcc : numColumns ref.data.length (windowSamples ref.sampleRate) (windowSamples ref.sampleRate / 4) =
    columnCount ref.sampleRate ref.data.length := by unfold numColumns columnCount; omega
  constructor
  · intro h
    have hce := compute_error h (by
      intro al lag hal refM degM ix patches coarse fb w1 w2 h5 h6 _ created found
      refine errs_fine_each _ _ fun r hr fb => ?_
      obtain ⟨k, hk, rfl⟩ := List.getElem_of_mem hr
      have hr := List.getElem?_eq_getElem hk
      generalize coarse[k] = r at hr
      obtain ⟨c1, c2⟩ := createPatches_ok created w1
      have hlal := globallyAlign_length hal
      have hals := (C39_only_shifts hal).1
      rw [f1, f2] at h5 h6
      have hcd := @numColumns_le al.data.length (windowSamples ref.sampleRate) (windowSamples ref.sampleRate / 4)
      obtain ⟨e1, ⟨i, hi, e⟩, e3⟩ := C52_coarse_times found c1 (fun q hq => (c2 q hq).2.2) w2 (lt_usizeMod (by omega)) k r hr
      obtain ⟨g1, g2⟩ := createPatches_get created hi
      have hi' : i < refM.ncols := by omega
      rw [h5] at hi'
      have hW2 : windowSamples ref.sampleRate ≤ 2 ^ 30 := by unfold windowSamples; omega
      have hbi := column_bound hu32 f3 hi' (by omega)
      have hbp : m.patchCreator.patchSize * windowSamples ref.sampleRate ≤ 2 ^ 36 := by
        have := Nat.mul_le_mul hP.2 hW2
        omega
      rw [f1, overlap_quarter] at e e1 e3
      rcases e3 with e3 | ⟨⟨o, ho, e4⟩, e5⟩
      · unfold finelyAlignPatch
        rw [e3.start, e3.stop]
        simp only [real_eq, decide_true, Bool.and_self, if_true]
        exact Errs.mk_ok _
      have ho' := ho
      rw [h6] at ho'
      have hbo := column_bound hu32 f3 ho' (by omega)
      have hfd : (Flt.ofNat (windowSamples ref.sampleRate) * (1 / 4) / Flt.ofNat ref.sampleRate : ℝ) =
          (windowSamples ref.sampleRate : ℝ) / 4 / ref.sampleRate := by
        simp only [real_ofNat]; ring
      rw [hfd] at e e1 e4 e5
      simp only [real_ofNat] at e e1 e4 e5
      refine finePatch_never_real hnb (i := i) (o := o) (pp := m.patchCreator.patchSize) (by rw [f2]; omega) (by rw [f1]; exact f3) ?_ (by omega) hP.1 (by omega) ?_
        (by rw [f1, Nat.add_mul]; omega) (by rw [f1, Nat.add_mul]; omega) (by rw [f1]; exact e) (by rw [f1]; exact e1) (by rw [f1]; exact e4) (by rw [f1]; exact e5)
      · show _ = al.sampleRate
        omega
      · simp only [scaleToMatchSpl, List.length_map]
        omega)
    rcases hce with ⟨h1, h2⟩ | ⟨al, lag, hal, h⟩
    · refine .inl ⟨?_, h2⟩
      rcases globallyAlign_none 1 h1 (fun _ _ => maxByAbs_found_real) (by omega) (by omega) with h | h | h
      · exact .inl h
      · exact .inr h
      · exact .inl (List.length_eq_zero_iff.mp (by omega))
    · refine .inr ⟨al, lag, hal, rejection_of ?_⟩
      rw [f1, f2] at h
      rcases h with h | h | ⟨h1, h2, n, h3, h4, h5⟩
      · exact .inl h
      · exact .inr (.inl h)
      · have hn : n = 20 := by
          rcases hpc with h | h <;> rw [h] at h3 <;> cases h3
          rfl
        subst hn
        rw [hcc] at h4 h5
        exact .inr (.inr ⟨h1, h2, by rw [h3]; decide, h4, h5⟩)
  · rintro (⟨h, rfl⟩ | ⟨al, lag, hal, h⟩)
    · exact C19_empty h (by omega)
    · have hc := C20_run (m := m) hal
      dsimp only at hc
      rw [f1] at hc
      unfold rejection at h
      split at h
      · rename_i hlt
        cases h
        exact hc.1 hlt
      rename_i hge
      obtain ⟨fb1, rs, b1, b2, _⟩ := buildSpectrogram_total m.numBands m.filterBank ref (AnalysisWindow.mk' ref.sampleRate 0.25 0.08)
        (by rw [f1]; omega) (by rw [f2]; omega) (by rw [f1]; omega)
      split at h
      · rename_i hlt
        cases h
        exact hc.2 _ b1 hlt
      rename_i hge2
      split at h
      swap
      · cases h
      rename_i hcol
      cases h
      simp only [Bool.and_eq_true, beq_iff_eq, decide_eq_true_eq] at hcol
      obtain ⟨him, hcol⟩ := hcol
      have hsl : (scaleToMatchSpl ref al).data.length = al.data.length := by simp [scaleToMatchSpl]
      obtain ⟨fb2, ds, c1, c2, _⟩ := buildSpectrogram_total m.numBands fb1 (scaleToMatchSpl ref al) (AnalysisWindow.mk' ref.sampleRate 0.25 0.08)
        (by rw [f1, hsl]; omega) (by rw [f2]; omega) (by rw [f1]; omega)
      have hpos : ∀ a b c, 0 < numColumns a b c := fun a b c => by unfold numColumns; exact Nat.lt_of_lt_of_le Nat.one_pos (Nat.le_add_right _ _)
      obtain ⟨rm, dm, d1⟩ := C23_total (spectroMat_wf m.numBands m.filterBank.minFreq ref (AnalysisWindow.mk' ref.sampleRate 0.25 0.08))
        (spectroMat_wf m.numBands fb1.minFreq (scaleToMatchSpl ref al) (AnalysisWindow.mk' ref.sampleRate 0.25 0.08))
        (by rw [spectroMat_nrows]; exact hnb) (hpos _ _ _) (by rw [spectroMat_nrows]; exact hnb) (hpos _ _ _)
      obtain ⟨_, _, _, _, q5, _⟩ := prepare_shape d1 (spectroMat_wf _ _ _ _) (spectroMat_wf _ _ _ _)
      have q5 : rm.ncols = columnCount ref.sampleRate ref.data.length := by
        rw [q5, ← hcc, ← f2, ← f1]; rfl
      unfold Manager.computeResults
      rw [hal, ok_bind]
      dsimp only
      unfold calculateSimilarity
      dsimp only
      rw [b1]
      simp only [ok_bind]
      rw [c1]
      simp only [ok_bind]
      rw [b2, c2, d1]
      simp only [ok_bind]
      rw [him, q5, C25_too_small p hcol]
      rfl

/-- Loading a file returns an error value exactly if the bit depth is not 16. -/
theorem load_error {F : Type} [Flt F] {c : WavContent} {e : VisqolError} :
    loadAsMono (F := F) c = .error (.err e) ↔ ∃ ch sr bits s, c = .wav ch sr bits s ∧ bits ≠ 16 ∧ e = .invalidBitsPerSample bits := by
  constructor
  · intro h
    exact load_err h
  · rintro ⟨ch, sr, bits, s, rfl, h, rfl⟩
    simp only [loadAsMono, C17_only_16_bit ch sr bits s h, error_bind]

/-- C92 for files: a run returns an error value exactly if a file is not 16 bit (the reference is looked at first), the two rates differ,
or the comparison of the two signals returns it. -/
theorem C92_files {F : Type} [Flt F] [RustFft F] {p : Profile} {world : World F} {m : Manager F} {r d : String} {e : VisqolError} :
    m.run p world r d = .error (.err e) ↔
      (∃ ch sr bits s, world.wav r = .wav ch sr bits s ∧ bits ≠ 16 ∧ e = .invalidBitsPerSample bits) ∨
      ∃ ref : AudioSignal F, loadAsMono (world.wav r) = .ok ref ∧
        ((∃ ch sr bits s, world.wav d = .wav ch sr bits s ∧ bits ≠ 16 ∧ e = .invalidBitsPerSample bits) ∨
        ∃ deg, loadAsMono (world.wav d) = .ok deg ∧
          ((ref.sampleRate ≠ deg.sampleRate ∧ e = .differentSampleRates ref.sampleRate deg.sampleRate) ∨
          (ref.sampleRate = deg.sampleRate ∧ m.computeResults p ref deg = .error (.err e)))) := by
  rw [← load_error (F := F), ← load_error (F := F)]
  constructor
  · intro h
    unfold Manager.run at h
    rcases bind_error h with h | ⟨ref, h1, h⟩
    · exact .inl h
    refine .inr ⟨ref, h1, ?_⟩
    rcases bind_error h with h | ⟨deg, h2, h⟩
    · exact .inl h
    refine .inr ⟨deg, h2, ?_⟩
    by_cases hs : ref.sampleRate = deg.sampleRate
    · refine .inr ⟨hs, ?_⟩
      have := C16_same_rate (p := p) (m := m) h1 h2 hs
      unfold Manager.run at this
      rw [h1, h2] at this
      exact this ▸ h
    · refine .inl ⟨hs, ?_⟩
      unfold validateInputAudio at h
      rw [if_pos hs] at h
      cases h; rfl
  · rintro (h | ⟨ref, h1, h | ⟨deg, h2, ⟨hs, rfl⟩ | ⟨hs, h⟩⟩⟩)
    · unfold Manager.run
      rw [h]; rfl
    · unfold Manager.run
      rw [h1, ok_bind, h]; rfl
    · exact C16_mismatch h1 h2 hs
    · rw [C16_same_rate h1 h2 hs]; exact h

/-- C92: a comparison of signals never reports a failure from outside; what is not a result or one of the error values is a panic. -/
theorem C92_or_panic {F : Type} [Flt F] [RustFft F] (p : Profile) (m : Manager F) (ref deg : AudioSignal F) :
    (∃ r, m.computeResults p ref deg = .ok r) ∨ (∃ e, m.computeResults p ref deg = .error (.err e)) ∨
      ∃ q, m.computeResults p ref deg = .error (.panic q) := by
  cases h : m.computeResults p ref deg with
  | ok r => exact .inl ⟨r, rfl⟩
  | error e =>
    cases e with
    | err v => exact .inr (.inl ⟨v, rfl⟩)
    | panic q => exact .inr (.inr ⟨q, rfl⟩)
    | external => exact absurd h (errs_computeResults (P := fun _ => True) trivial (fun _ _ => trivial) fun _ _ _ _ => trivial).ext

/-- C61: what stops the comparison of `C61_fullband` is a panic, unless the aligned degraded signal is shorter than a window. -/
theorem C61_panics {F : Type} [Flt F] [RustFft F] {p : Profile} {m : Manager F} {ref deg al : AudioSignal F} {lag : F} (hm : m.patchCreator = .image 20)
    (hal : globallyAlign p ref deg = .ok (some (al, lag)))
    (hlen : (AnalysisWindow.mk' (F := F) ref.sampleRate 0.25 0.08).size ≤ al.data.length)
    (hfar : numColumns al.data.length (AnalysisWindow.mk' (F := F) ref.sampleRate 0.25 0.08).size
        (AnalysisWindow.mk' (F := F) ref.sampleRate 0.25 0.08).hop + m.searchWindow * 20 + 50 ≤
      numColumns ref.data.length (AnalysisWindow.mk' (F := F) ref.sampleRate 0.25 0.08).size
        (AnalysisWindow.mk' (F := F) ref.sampleRate 0.25 0.08).hop)
    (hbig : numColumns ref.data.length (AnalysisWindow.mk' (F := F) ref.sampleRate 0.25 0.08).size
        (AnalysisWindow.mk' (F := F) ref.sampleRate 0.25 0.08).hop + m.searchWindow * 20 ≤ 2147483647) :
    ∃ q, m.computeResults p ref deg = .error (.panic q) := by
  rcases C92_or_panic p m ref deg with ⟨x, h⟩ | ⟨e, h⟩ | h
  · exact absurd h (C61_fullband hm hal hfar hbig x)
  · have hce := compute_error h (by
      intro al' lag' hal' refM degM ix patches coarse fb w1 w2 h5 h6 hix created found
      rw [hal] at hal'
      cases hal'
      rw [hm] at hix created
      rw [← h5] at hfar hbig
      rw [← h6] at hfar
      obtain ⟨q, hq⟩ := fullband_far w1 hix created hfar hbig
      rw [hq] at found
      cases found)
    rcases hce with ⟨h0, _⟩ | ⟨al', lag', hal', h1 | h1 | ⟨_, _, n, hn, h1, _⟩⟩
    · rw [hal] at h0; cases h0
    · have : numColumns ref.data.length (AnalysisWindow.mk' (F := F) ref.sampleRate 0.25 0.08).size
          (AnalysisWindow.mk' (F := F) ref.sampleRate 0.25 0.08).hop = 1 := by
        unfold numColumns
        rw [Nat.sub_eq_zero_of_le h1.1.le, Nat.zero_div]
      omega
    · rw [hal] at hal'; cases hal'; omega
    · rw [hm] at hn; cases hn; omega
  · exact h

theorem load_unreadable {F : Type} [Flt F] {c : WavContent} : loadAsMono (F := F) c = .error .external ↔ c = .unreadable := by
  constructor
  · intro h
    unfold loadAsMono at h
    rcases bind_error h with h | ⟨w, _, h⟩
    · cases c with
      | unreadable => rfl
      | wav ch sr bits s =>
        unfold WavFile.open at h
        dsimp only at h
        split at h
        · cases h
        · exact absurd h (Errs.ext (P := fun _ => True) (Errs.mk_bind (Errs.mk_expect _) fun _ => Errs.mk_ok _))
    · exact absurd h (Errs.ext (P := fun _ => True) (Errs.mk_bind (errs_extract ..) fun _ => Errs.mk_ok _))
  · rintro rfl; rfl

/-- C92 for files: a failure of the file system is passed on exactly if the reference cannot be read as a WAV file, or it can be loaded and the
degraded file cannot be read. -/
theorem C92_unreadable {F : Type} [Flt F] [RustFft F] {p : Profile} {world : World F} {m : Manager F} {r d : String} :
    m.run p world r d = .error .external ↔
      world.wav r = .unreadable ∨ ((∃ ref : AudioSignal F, loadAsMono (world.wav r) = .ok ref) ∧ world.wav d = .unreadable) := by
  rw [← load_unreadable (F := F), ← load_unreadable (F := F)]
  constructor
  · intro h
    unfold Manager.run at h
    rcases bind_error h with h | ⟨ref, h1, h⟩
    · exact .inl h
    rcases bind_error h with h | ⟨deg, h2, h⟩
    · exact .inr ⟨⟨ref, h1⟩, h⟩
    rcases bind_error h with h | ⟨_, _, h⟩
    · unfold validateInputAudio at h
      split at h <;> cases h
    · rcases C92_or_panic p m ref deg with ⟨_, h'⟩ | ⟨_, h'⟩ | ⟨_, h'⟩ <;> (rw [h] at h'; cases h')
  · rintro (h | ⟨⟨ref, h1⟩, h⟩)
    · unfold Manager.run
      rw [h]; rfl
    · unfold Manager.run
      rw [h1, ok_bind, h]; rfl

/-! ## Examples -/

/-- The second case of `C92_unreadable`: the reference loads, the degraded file does not exist. -/
example (p : Profile) : demoManager.run p demoWorld "ref.wav" "missing.wav" = .error .external :=
  C92_unreadable.mpr (.inr ⟨⟨_, by rw [demo_ref]; exact load_steady 40000 demo_i16.1⟩, by simp [demoWorld, -List.reduceReplicate]⟩)

/-- A fullband comparison refused by `C92_exactly`: 25 columns of silence at 48 kHz. -/
example (p : Profile) (q : QualityMapper ℝ) : ((⟨32, 60, .image 20, q, FilterBank.new 32 50.0⟩ : Manager ℝ)).computeResults p
    ⟨List.replicate 26880 0, 48000⟩ ⟨List.replicate 26880 0, 48000⟩ = .error (.err (.referenceSpectrogramTooSmall 25 10)) := by
  have hl : (List.replicate 26880 (0 : ℝ)).length = 26880 := List.length_replicate
  have hne : List.replicate 26880 (0 : ℝ) ≠ [] := fun h => by rw [h] at hl; cases hl
  obtain ⟨al, lag, hal, _, hlen⟩ := globallyAlign_total p (ref := ⟨List.replicate 26880 0, 48000⟩) (deg := ⟨List.replicate 26880 0, 48000⟩)
    hne hne (by dsimp only; rw [hl]; norm_num) (by dsimp only; rw [hl]; norm_num) (by dsimp only; rw [hl]; norm_num)
  dsimp only at hlen
  rw [hl] at hlen
  refine (C92_exactly (.inr rfl) (by norm_num) (by norm_num) (by norm_num) rfl (by dsimp only; rw [hl]; norm_num)).mpr
    (.inr ⟨al, lag, hal, rejection_of (.inr (.inr ⟨?_, ?_, by rfl, ?_, ?_⟩))⟩)
  all_goals dsimp only
  all_goals try rw [hl]
  · decide
  · have : windowSamples 48000 = 3840 := by decide
    omega
  · decide
  · have : columnCount 48000 26880 = 25 := by decide
    rw [this]

/-- A comparison refused in double precision, for `C92_rounded`: 100 samples at 48 kHz are less than a window. -/
example (p : Profile) (m : Manager B64) : m.computeResults p
    ⟨List.replicate 100 0.0, 48000⟩ ⟨List.replicate 5000 0.0, 48000⟩ = .error (.err (.tooFewSamples 100 3840)) := by
  have hl (n : Nat) : (List.replicate n (0.0 : B64)).length = n := List.length_replicate
  have hne (n : Nat) (h : 0 < n) : List.replicate n (0.0 : B64) ≠ [] := fun hn => by have := hl n; rw [hn] at this; simp at this; omega
  have hpw (n : Nat) : ∀ a ∈ List.replicate n (0.0 : B64), Pw 0 a := fun a ha => by rw [(List.mem_replicate.mp ha).2]; exact Pw.zero
  obtain ⟨al, lag, hal, _⟩ := globallyAlign_total' p (ref := ⟨List.replicate 100 (0.0 : B64), 48000⟩) (deg := ⟨List.replicate 5000 0.0, 48000⟩)
    (hpw _) (hpw _) (by norm_num) (hne _ (by norm_num)) (hne _ (by norm_num)) (by dsimp only; rw [hl, hl]; norm_num) (by dsimp only; rw [hl, hl]; norm_num)
    (by dsimp only; rw [hl, hl]; norm_num)
  obtain ⟨f1, _⟩ := ieee_window_facts (F := B64) (sr := 48000) (by norm_num) (by norm_num)
  have h := (C20_run (m := m) hal).1
  dsimp only at h
  rw [hl, f1] at h
  exact h (by decide)

/-- A steady signal is not moved to match a longer one. -/
theorem delay_steady {pad : ℕ → ℕ} {r d : ℕ} {c : ℝ} (hc : 0 ≤ c) (h0 : 0 < d) (hdr : d ≤ r) {z : ℤ}
    (h : Spec.IsDelay pad (List.replicate r c) (List.replicate d c) z) : z = 0 := by
  obtain ⟨lag, hl, rfl⟩ := h
  rw [envelope_const (by omega), envelope_const (by omega)] at hl
  have hq : (0 : ℝ) < 1 / 1000000 + c := by positivity
  generalize 1 / 1000000 + c = q at hl hq
  have hat : ∀ (n : ℕ) (k : ℤ), sampleAt (List.replicate n q) k = if 0 ≤ k ∧ k < n then q else 0 := by
    intro n k
    unfold sampleAt
    split_ifs with h1 h2 h2
    · rw [List.getD_eq_getElem?_getD, List.getElem?_replicate, if_pos (by omega), Option.getD_some]
    · rw [List.getD_eq_getElem?_getD, List.getElem?_replicate, if_neg (by omega), Option.getD_none]
    · omega
    · rfl
  have hx : ∀ k : ℤ, xcorr (List.replicate r q) (List.replicate d q) k =
      ∑ j ∈ Finset.range d, if 0 ≤ j + k ∧ j + k < r then q * q else 0 := by
    intro k
    unfold xcorr
    rw [List.length_replicate]
    refine Finset.sum_congr rfl fun j hj => ?_
    have := Finset.mem_range.mp hj
    rw [hat, hat, if_pos (⟨by omega, by omega⟩ : (0 : ℤ) ≤ j ∧ (j : ℤ) < d)]
    split_ifs <;> simp
  have hqq : 0 < q * q := by positivity
  have hpos : ∀ k, 0 ≤ xcorr (List.replicate r q) (List.replicate d q) k := by
    intro k; rw [hx]; exact Finset.sum_nonneg fun j _ => by split_ifs <;> positivity
  have hzero : xcorr (List.replicate r q) (List.replicate d q) 0 = ∑ j ∈ Finset.range d, q * q := by
    rw [hx]
    refine Finset.sum_congr rfl fun j hj => if_pos ?_
    have := Finset.mem_range.mp hj
    omega
  have hle : ∀ k, xcorr (List.replicate r q) (List.replicate d q) k ≤ xcorr (List.replicate r q) (List.replicate d q) 0 := by
    intro k
    rw [hzero, hx]
    exact Finset.sum_le_sum fun j _ => by split_ifs <;> linarith
  have hin : |(0 : ℤ)| < (max (List.replicate r q).length (List.replicate d q).length : ℕ) := by
    rw [abs_zero, List.length_replicate, List.length_replicate]; omega
  have hbest := hl.best 0 hin
  rw [abs_of_nonneg (hpos _), abs_of_nonneg (hpos _)] at hbest
  have hlag := hl.first 0 hin (le_antisymm hbest (hle _))
  have : lag = 0 := by
    rcases hlag.lt_or_eq with hneg | h
    · refine absurd hbest (not_le.mpr ?_)
      rw [hzero, hx]
      refine Finset.sum_lt_sum (fun j _ => by split_ifs <;> linarith) ⟨0, Finset.mem_range.mpr h0, ?_⟩
      rw [if_neg (by omega)]
      exact hqq
    · exact h
  rw [this]
  simp [Spec.accepted]

/-- The hypotheses of `C61_fullband` and `C61_panics`: a second of silence as degraded signal for a reference of a minute, with the search
window set to ten patches. -/
example (p : Profile) (q : QualityMapper ℝ) : ∃ pn, ((⟨32, 10, .image 20, q, FilterBank.new 32 50.0⟩ : Manager ℝ)).computeResults p
    ⟨List.replicate 2880000 0, 48000⟩ ⟨List.replicate 48000 0, 48000⟩ = .error (.panic pn) := by
  have hl : (List.replicate 2880000 (0 : ℝ)).length = 2880000 := List.length_replicate
  have hl2 : (List.replicate 48000 (0 : ℝ)).length = 48000 := List.length_replicate
  obtain ⟨pad, hpad⟩ := pad_exists p
  obtain ⟨z, hz, hal⟩ := C70_delay p hpad (ref := ⟨List.replicate 2880000 0, 48000⟩) (deg := ⟨List.replicate 48000 0, 48000⟩)
    (by dsimp only; omega) (by dsimp only; omega) (by dsimp only; omega) (by dsimp only; rw [hl, hl2]; norm_num)
  have hz0 := delay_steady le_rfl (by norm_num) (by norm_num) hz
  subst hz0
  have hsh : (Spec.shift 0 (List.replicate 48000 (0 : ℝ))).length = 48000 := by simp [Spec.shift, -List.reduceReplicate]
  obtain ⟨f1, f2, _⟩ := window_facts (sr := 48000) (by norm_num) (by norm_num)
  refine C61_panics rfl hal ?_ ?_ ?_ <;> dsimp only <;> (try rw [hl]) <;> rw [f1] <;> (try rw [f2])  <;> (try rw [hsh])
  · decide
  · decide
  · decide

end Visqol
