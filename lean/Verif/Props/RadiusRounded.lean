import Verif.Props.Options
import Verif.Props.WindowRounded
import Verif.Props.NoFailureIeee
import Verif.Props.QualityRounded

/-! # The search radius in floating point (C77) -/

set_option linter.unusedSectionVars false

namespace Visqol
open Ieee
variable {F : Type} [Flt F] [Ieee F] [RustFft F] [BoundedFft F] [Libm F]

/-- The search windows of the patches of a comparison contain something and the similarities in them are positive. -/
structure WindowsPositive (p : Profile) {nb : Nat} {fb : FilterBank F} {ref deg : AudioSignal F} {w : AnalysisWindow F}
    {pc : PatchCreator} {mapper : QualityMapper F} {sw : Nat} {res : SimilarityResult F}
    (st : Stages p nb fb ref deg w pc mapper sw res) (reach : Nat) : Prop where
  reached : ∀ i ∈ st.ix, i < st.degM.ncols + reach
  positive : ∀ n < st.coarse.length, ∀ o, InWindow st.ix reach st.degM.ncols n o →
    ∀ x, val (simAt p st.patches st.degM n o) = .fin x → 0 < x

/-- The levels compared in a comparison of ordinary signals are finite. -/
theorem levels_pw {p : Profile} {nb : Nat} {fb : FilterBank F} {ref deg al : AudioSignal F} {lag : F}
    {pc : PatchCreator} {mapper : QualityMapper F} {sw : Nat} {res : SimilarityResult F}
    (st : Stages p nb fb ref al (AnalysisWindow.mk' ref.sampleRate 0.25 0.08) pc mapper sw res)
    (hal : globallyAlign p ref deg = .ok (some (al, lag))) (hsr : ref.sampleRate = deg.sampleRate) (hmf : fb.minFreq = 50.0)
    (hnb : 0 < nb) (hnb2 : nb ≤ 64) (h1k : 1000 ≤ ref.sampleRate) (h1m : ref.sampleRate ≤ 1000000)
    (hlen : ref.data.length + deg.data.length < 1073741824)
    (hrs : OrdinarySamples ref) (hds : OrdinarySamples deg) (hl : SoundFrom (ref.data.length / 2) deg) :
    st.refM.Pw 12 ∧ st.degM.Pw 12 := by
  obtain ⟨w1, w2, w3⟩ := ieee_window_facts (F := F) (sr := ref.sampleRate) (by omega) (by omega)
  have w4 : windowSamples ref.sampleRate ≤ 2 ^ 17 := by unfold windowSamples; omega
  have pr : ∀ a ∈ ref.data, Pw 1 a := fun a ha => by
    obtain ⟨x, h1, h2⟩ := hrs a ha
    exact ⟨x, h1, by norm_num; exact h2⟩
  have pd : ∀ a ∈ deg.data, Pw 1 a := fun a ha => by
    obtain ⟨x, h1, h2⟩ := hds a ha
    exact ⟨x, h1, by norm_num; exact h2⟩
  obtain ⟨hrate, hcases⟩ := C39_only_shifts hal
  have hlal := globallyAlign_length hal
  have both : (∀ a ∈ al.data, Pw 1 a) ∧ ∃ a ∈ al.data, ∃ v, Is a v ∧ 1 / 2 ^ 40 ≤ |v| := by
    obtain ⟨a, ha, hv⟩ := hl
    obtain ⟨e, _⟩ | ⟨lag, _, hlag, _, ⟨_, _, e⟩ | ⟨_, e⟩⟩ := hcases
    · rw [e]; exact ⟨pd, a, List.mem_of_mem_drop ha, hv⟩
    · rw [e]
      have : ref.data.length / 2 = lag.natAbs + (ref.data.length / 2 - lag.natAbs) := by omega
      rw [this, ← List.drop_drop] at ha
      exact ⟨fun b hb => pd b (List.mem_of_mem_drop hb), a, List.mem_of_mem_drop ha, hv⟩
    · rw [e]
      refine ⟨fun b hb => ?_, a, List.mem_append_right _ (List.mem_of_mem_drop ha), hv⟩
      rcases List.mem_append.mp hb with hb | hb
      · rw [(List.mem_replicate.mp hb).2]; exact Pw.zero
      · exact pd b hb
  have hs1 := st.hsr
  have hs2 := st.hsd
  have hdl : (scaleToMatchSpl ref al).data.length = al.data.length := by show (List.map _ _).length = _; rw [List.length_map]
  have hdsr : (scaleToMatchSpl ref al).sampleRate = ref.sampleRate := by show al.sampleRate = _; omega
  have hsp := scale_pw pr both.1 (by omega) (by omega) (by intro h; rw [h, w1] at hs1; simp at hs1; omega) both.2
  have i1 : NoInf (spectroMat nb fb.minFreq ref (AnalysisWindow.mk' ref.sampleRate 0.25 0.08)) := by
    rw [hmf]
    exact spectroMat_noInf (tameBank h1k h1m hnb hnb2) (m := 1) (by norm_num) pr st.hsr st.hsize (by rw [w1]; exact w4)
  have i2 : NoInf (spectroMat nb st.fb1.minFreq (scaleToMatchSpl ref al) (AnalysisWindow.mk' ref.sampleRate 0.25 0.08)) := by
    rw [st.minFreq1, hmf]
    exact spectroMat_noInf (by rw [hdsr]; exact tameBank h1k h1m hnb hnb2) (by norm_num) hsp (by rw [hdl]; exact hs2) st.hsize
      (by rw [w1]; exact w4)
  have c0 : ∀ (mf : F) (s : AudioSignal F) (w : AnalysisWindow F), 0 < (spectroMat nb mf s w).nrows ∧ 0 < (spectroMat nb mf s w).ncols :=
    fun mf s w => ⟨by rw [spectroMat_nrows]; exact hnb, by show 0 < numColumns _ _ _; exact Nat.add_pos_left Nat.one_pos _⟩
  obtain ⟨a, b, q1, q2, q3⟩ := prepare_pw (spectroMat_wf _ _ _ _) (spectroMat_wf _ _ _ _) (c0 _ _ _).1 (c0 _ _ _).2 (c0 _ _ _).1 (c0 _ _ _).2 i1 i2
  rw [st.prep] at q1
  cases q1
  exact ⟨q2, q3⟩

/-- C77, search radius in floating point: a manager constructed with search radius `k` looks, after any history, `k` patches of frames to
either side of a reference patch.  For ordinary signals, if the similarities in these windows are positive, the matches made lie in the
windows, and no choice of matches within the windows has a larger total, where totals are formed in floating point. -/
theorem C77_radius_rounded {p : Profile} {world : World F} {nb k : Nat} {v : Variant} {m₀ m m' : Manager F}
    {ref deg : AudioSignal F} {res : SimilarityResult F} (hm : Manager.new world nb v k = .ok m₀) (ha : After p m₀ m)
    (hnb : 0 < nb) (hnb2 : nb ≤ 64)
    (hsr : ref.sampleRate = deg.sampleRate) (h1k : 1000 ≤ ref.sampleRate) (h1m : ref.sampleRate ≤ 1000000)
    (hrs : OrdinarySamples ref) (hds : OrdinarySamples deg) (hl : SoundFrom (ref.data.length / 2) deg)
    (hlen : ref.data.length + deg.data.length < 1073741824)
    (hbig : ref.data.length + k * v.framesPerPatch ≤ 2147483647)
    (h : m.computeResults p ref deg = .ok (m', res)) :
    ∃ al lag, globallyAlign p ref deg = .ok (some (al, lag)) ∧
      ∃ st : Stages p m.numBands m.filterBank ref al (AnalysisWindow.mk' ref.sampleRate 0.25 0.08) m.patchCreator
        m.mapper m.searchWindow res, WindowsPositive p st (k * v.framesPerPatch) →
      ∃ (c : List (Option Nat)) (t : F), c.length = st.coarse.length ∧ Within st.ix (k * v.framesPerPatch) st.degM.ncols c ∧
        (∀ j < st.coarse.length, ∃ r x q, st.coarse[j]? = some r ∧ c[j]? = some x ∧ st.patches[j]? = some q ∧
          match x with
          | none => Unmatched r
          | some o => InWindow st.ix (k * v.framesPerPatch) st.degM.ncols j o ∧
              ∃ n, measurePatchSimilarity p q (st.degM.window o v.framesPerPatch) = .ok n ∧ r.similarity = n.similarity) ∧
        runningTotal (simAt p st.patches st.degM) c = some t ∧ (∃ x, val t = .fin x) ∧
        ∀ c', c'.length = st.coarse.length → Within st.ix (k * v.framesPerPatch) st.degM.ncols c' →
          ∃ t', runningTotal (simAt p st.patches st.degM) c' = some t' ∧ (∃ x, val t' = .fin x) ∧ Flt.lt t t' = false := by
  obtain ⟨h1, h2, h3, _, _⟩ := new_mapper hm
  have hs := ha.sim
  have hk : m.searchWindow = k := hs.2.1.trans h2
  have hnb' : m.numBands = nb := hs.1.trans h1
  have hmf : m.filterBank.minFreq = 50.0 := by
    rw [hs.2.2.2.2]
    unfold Manager.new at hm
    cases v with
    | wideband u => cases hm; rfl
    | fullband path =>
      obtain ⟨model, _, hm⟩ := bind_ok hm
      cases hm; rfl
  have hpc : m.patchCreator = .vad 30 ∨ m.patchCreator = .image 20 := by
    rw [hs.2.2.1, h3]; cases v <;> simp
  have hps : m.patchCreator.patchSize = v.framesPerPatch := by
    rw [hs.2.2.1, h3]; cases v <;> rfl
  have hpp1 : 1 ≤ v.framesPerPatch := by cases v <;> simp [Variant.framesPerPatch]
  have hpp2 : v.framesPerPatch ≤ 30 := by cases v <;> simp [Variant.framesPerPatch]
  have hkb : k ≤ 2147483647 := by nlinarith
  obtain ⟨al, lag, hal, ⟨st⟩⟩ := computeResults_stages h
  refine ⟨al, lag, hal, st, fun hw => ?_⟩
  obtain ⟨hreach, hpos⟩ := hw
  obtain ⟨l1, l2⟩ := levels_pw st hal hsr hmf (by omega) (by omega) h1k h1m hlen hrs hds hl
  obtain ⟨w1, w2, n1, n2, c1, c2⟩ := st.shapes
  obtain ⟨p1, p2⟩ := createPatches_ok st.created w1
  have hlal := globallyAlign_length hal
  have hcd := @numColumns_le al.data.length (AnalysisWindow.mk' (F := F) ref.sampleRate 0.25 0.08).size
      (AnalysisWindow.mk' (F := F) ref.sampleRate 0.25 0.08).hop
  have hcr := @numColumns_le ref.data.length (AnalysisWindow.mk' (F := F) ref.sampleRate 0.25 0.08).size
      (AnalysisWindow.mk' (F := F) ref.sampleRate 0.25 0.08).hop
  rw [← c1] at hcr
  rw [← c2] at hcd
  have hin : ∀ i ∈ st.ix, i + v.framesPerPatch ≤ st.refM.ncols := by
    intro i hi
    obtain ⟨j, hj⟩ := List.getElem?_of_mem hi
    rw [← hps]
    exact (createPatches_get st.created hj).2
  have hsorted := (st.sorted_ix hpc (by omega)).1
  have hfound := st.found
  have hwrap : wrapI32 (m.searchWindow : Int) = (k : Int) := by
    rw [hk]; exact wrapI32_of_mem (by omega) (by omega)
  rw [hwrap] at hfound
  have hdeg : 0 < st.degM.ncols := by
    rw [c2]; unfold numColumns; exact Nat.lt_of_lt_of_le Nat.zero_lt_one (Nat.le_add_right _ _)
  have hixl : st.ix.length ≤ st.refM.ncols := by
    have hsub : st.ix.toFinset ⊆ Finset.range st.refM.ncols := by
      intro i hi
      have := hin i (List.mem_toFinset.mp hi)
      exact Finset.mem_range.mpr (by omega)
    have := Finset.card_le_card hsub
    rwa [List.toFinset_card_of_nodup (hsorted.imp (fun h => Nat.ne_of_lt h)), Finset.card_range] at this
  have hr : ∀ q ∈ st.patches, q.WF ∧ q.nrows = m.numBands ∧ q.ncols = v.framesPerPatch :=
    fun q hq => ⟨(p2 q hq).1, (p2 q hq).2.1.trans n1, (p2 q hq).2.2.trans hps⟩
  obtain ⟨c, t, k1, k2, k3, k4⟩ := C72_window_rounded (nb := m.numBands) (pp := v.framesPerPatch) (S := 2 ^ 600) hfound p1 hr w2
    (by omega) (by omega) (by omega) (fun i hi => by have := hin i hi; omega) hsorted hdeg hreach (one_le_pow₀ (by norm_num))
    (two_pow_mono (by norm_num)) (similarities_within (n := 12) (by norm_num) hr (by omega) (by omega) (by omega) (by omega) n2
      (createPatches_pw st.created l1) l2) hpos
  refine ⟨c, t, k1, k2, fun j hj => ?_, k4⟩
  obtain ⟨r, x, q, q1, q2, q3, q4⟩ := k3 j hj
  refine ⟨r, x, q, q1, q2, q3, ?_⟩
  cases x with
  | none => exact q4
  | some o =>
    have q4 : MatchedAt p st.degM q _ _ o r := q4
    obtain ⟨n, e1, e2, _⟩ := q4.scores
    rw [(hr q (List.mem_of_getElem? q3)).2.2] at e1
    exact ⟨k2.chosen q2, n, e1, e2⟩

/-- In a comparison in fullband mode with a silent reference all similarities are 1, so the windows are positive. -/
theorem silent_windows [NanFft F] {p : Profile} {m : Manager F} {ref deg al : AudioSignal F} {lag : F} {res : SimilarityResult F} {reach : Nat}
    (hal : globallyAlign p ref deg = .ok (some (al, lag)))
    (st : Stages p m.numBands m.filterBank ref al (AnalysisWindow.mk' ref.sampleRate 0.25 0.08) m.patchCreator m.mapper
      m.searchWindow res)
    (hm : m.patchCreator = .image 20) (hr1 : 1 ≤ m.searchWindow)
    (hr2 : 14 + 30 * m.searchWindow ≤ 2147483647) (hsr : ref.sampleRate = deg.sampleRate) (h0 : 0 < ref.sampleRate)
    (hsr32 : ref.sampleRate < 4294967296) (hlen : ref.data.length + deg.data.length ≤ 2 ^ 36) (hn0 : 0 < m.numBands) (hnb : m.numBands ≤ 2 ^ 53)
    (hdrift : SmallDrift ref.sampleRate (deg.data.length + ref.data.length / 2))
    (hsilent : Silent ref.data) (hfin : Finite deg.data) (hreach : st.refM.ncols ≤ reach) : WindowsPositive p st reach := by
  have hal_len := globallyAlign_length hal
  have hal36 : al.data.length ≤ 2 ^ 36 := le_trans (by omega) hlen
  have href36 : ref.data.length ≤ 2 ^ 36 := le_trans (by omega) hlen
  have h53 : (2 : ℕ) ^ 36 < 2 ^ 53 := by norm_num
  have hne : ref.data ≠ [] := by
    intro hc
    have h1 := st.hsr
    have h2 := st.hsize
    rw [hc] at h1
    simp only [List.length_nil, Nat.le_zero] at h1
    omega
  have hscaled : Silent (scaleToMatchSpl ref al).data := by
    refine (scaled_to_silence hsilent hne (by omega) (finite_aligned hfin hal)).resolve_right fun hn => ?_
    exact nan_no_result hal st (.inr hm) hr1 hr2 hsr h0 hsr32 hlen hdrift hn
  have hslen : (scaleToMatchSpl ref al).data.length = al.data.length := by simp [scaleToMatchSpl]
  obtain ⟨s1, s2, s3, s4, s5, s6⟩ := st.shapes
  obtain ⟨z1, z2⟩ := prepare_mute (spectroMat_wf _ _ _ _) (spectroMat_wf _ _ _ _)
    (spectroMat_mute hsilent st.hsr st.hhop st.hsize (by omega))
    (spectroMat_mute hscaled (by rw [hslen]; exact st.hsd) st.hhop st.hsize (by omega)) st.prep
  obtain ⟨c1, c2⟩ := createPatches_ok st.created s1
  have hpz := zero_patch z1 st.created
  have h20 : m.patchCreator.patchSize = 20 := by rw [hm]; rfl
  refine ⟨fun i hi => ?_, fun n hn o _ x hx => ?_⟩
  · obtain ⟨j, hj⟩ := List.getElem?_of_mem hi
    have := (createPatches_get st.created hj).2
    omega
  · have hl := st.coarse_ok.2.1
    have hq : st.patches[n]? = some (st.patches[n]'(by omega)) := List.getElem?_eq_getElem _
    generalize st.patches[n]'_ = q at hq
    have hqm := List.mem_of_getElem? hq
    obtain ⟨q1, q2, q3⟩ := c2 q hqm
    obtain ⟨v1, v2, v3⟩ := window_wf st.degM o q.ncols
    have hmeas := measurePatchSimilarity_eq p q (st.degM.window o q.ncols) q1 v1 ⟨by omega, by omega⟩ (by omega) (by omega)
    have hz := (measure_zero q1 v1 (hpz q hqm) (zero_window z2 o _) (by omega)
      (by rw [q3, h20]; norm_num) hmeas).1
    unfold simAt at hx
    simp only [hq, hmeas] at hx
    rw [hz] at hx
    cases hx
    exact one_pos

/-- All hypotheses: 2.5 s of silence against a step at full scale, in fullband mode. -/
example (p : Profile) (world : World B64) (hw : world.svr "model.txt" = some ⟨32, fun _ => some (some 3.0)⟩) :
    ∃ m m' res, Manager.new world 32 (.fullband "model.txt") 60 = .ok m ∧ After p m m ∧
      m.computeResults p noSound (onset B64 1000 40000) = .ok (m', res) ∧
      OrdinarySamples noSound ∧ OrdinarySamples (onset B64 1000 40000) ∧
      SoundFrom (noSound.data.length / 2) (onset B64 1000 40000) ∧
      noSound.data.length + 60 * Variant.framesPerPatch (.fullband "model.txt") ≤ 2147483647 ∧
      ∀ al lag, globallyAlign p noSound (onset B64 1000 40000) = .ok (some (al, lag)) →
        ∀ st : Stages p m.numBands m.filterBank noSound al (AnalysisWindow.mk' noSound.sampleRate 0.25 0.08) m.patchCreator
          m.mapper m.searchWindow res, WindowsPositive p st (60 * Variant.framesPerPatch (.fullband "model.txt")) := by
  have hm : Manager.new world 32 (.fullband "model.txt") 60 =
      .ok ⟨32, 60, .image 20, .svr ⟨32, fun _ => some (some 3.0)⟩, FilterBank.new 32 50.0⟩ := by
    unfold Manager.new
    simp only [hw, expect, ok_bind]
  have hsl : Silent noSound.data := fun a ha => by rw [List.eq_of_mem_replicate ha]; exact val_0
  have hos : OrdinarySamples noSound := fun a ha => ⟨0, by rw [List.eq_of_mem_replicate ha]; exact val_0, by norm_num⟩
  have hrate : noSound.sampleRate = 16000 := rfl
  have hsf : SoundFrom (noSound.data.length / 2) (onset B64 1000 40000) := onset_sound (by rw [noSound_length]; norm_num) (by norm_num)
  obtain ⟨m', res, h1, _⟩ : ∃ m' res, (⟨32, 60, .image 20, .svr ⟨32, fun _ => some (some 3.0)⟩, FilterBank.new 32 50.0⟩ : Manager B64).computeResults p
      noSound (onset B64 1000 40000) = .ok (m', res) ∧ FiniteScores res := by
    refine C74_fullband_finite p _ rfl (by norm_num) (by norm_num) rfl (fun v hv _ => predict_three rfl v hv) rfl (by rw [hrate]; norm_num)
      (by rw [hrate]; norm_num) ?_ hos (onset_ordinary _ _) hsf ?_ ?_ ?_ ?_ ?_ ?_
    all_goals try simp only [onset_length, noSound_length, hrate]
    all_goals try unfold SmallDrift
    all_goals try unfold columnCount
    all_goals try unfold windowSamples
    all_goals norm_num
  refine ⟨_, m', res, hm, .fresh, h1, hos, onset_ordinary _ _, hsf, by rw [noSound_length]; norm_num [Variant.framesPerPatch], fun al lag hal st => ?_⟩
  refine silent_windows hal st rfl ?_ ?_ rfl ?_ ?_ ?_ ?_ ?_ ?_ hsl ?_ ?_
  all_goals try simp only [onset_length, noSound_length, hrate]
  all_goals try unfold SmallDrift
  all_goals try unfold columnCount
  all_goals try unfold windowSamples
  all_goals try norm_num
  · intro a ha
    obtain ⟨x, hx, _⟩ := onset_ordinary (F := B64) 1000 40000 a ha
    exact ⟨x, hx⟩
  · obtain ⟨w1, w2, _⟩ := ieee_window_facts (F := B64) (sr := 16000) (by norm_num) (by norm_num)
    refine st.shapes.2.2.2.2.1.trans_le ?_
    rw [hrate, w1, w2, noSound_length]
    norm_num [numColumns, windowSamples, Variant.framesPerPatch]

/-- The hypotheses, up to the similarities: the second comparison by a manager that has been used. -/
example (p : Profile) (world : World B64) (u : Bool) :
    (∃ m₀ m m' res res', Manager.new world 21 (.wideband u) 60 = .ok m₀ ∧
      m₀.computeResults p (onset B64 0 40000) (onset B64 1000 40000) = .ok (m, res) ∧ After p m₀ m ∧
      m.computeResults p (onset B64 0 40000) (onset B64 1000 40000) = .ok (m', res')) ∧
    OrdinarySamples (onset B64 0 40000) ∧ OrdinarySamples (onset B64 1000 40000) ∧
    SoundFrom ((onset B64 0 40000).data.length / 2) (onset B64 1000 40000) ∧
    (onset B64 0 40000).data.length + 60 * Variant.framesPerPatch (.wideband u) ≤ 2147483647 := by
  have key : ∀ fb : FilterBank B64, fb.minFreq = 50.0 → ∃ m' res, (⟨21, 60, .vad 30, .speech !u, fb⟩ : Manager B64).computeResults p
      (onset B64 0 40000) (onset B64 1000 40000) = .ok (m', res) ∧ FiniteScores res := by
    intro fb hfb
    obtain ⟨norm, h1, h2⟩ := steady_active (F := B64) (n := 40000) (f := 30) val_1 (by norm_num)
    rw [show List.replicate 40000 (1.0 : B64) = (onset B64 0 40000).data by unfold onset; rw [List.replicate_zero, List.nil_append]] at h1
    refine C74_wideband_finite p _ rfl (by norm_num) (by norm_num) hfb rfl rfl (by norm_num [onset]) (by norm_num [onset]) ?_
      (onset_ordinary _ _) (onset_ordinary _ _) (onset_sound ?_ ?_) ?_ ?_ h1 (k := 1) (f := 30) le_rfl ?_ (by norm_num) ?_ ?_ ?_ ?_
    all_goals try simp only [onset_length, show ∀ z n, (onset B64 z n).sampleRate = 16000 from fun _ _ => rfl]
    all_goals try exact h2
    all_goals try unfold SmallDrift
    all_goals try unfold columnCount
    all_goals try unfold windowSamples
    all_goals norm_num
  refine ⟨?_, onset_ordinary _ _, onset_ordinary _ _, onset_sound (by rw [onset_length]; norm_num) (by norm_num), ?_⟩
  · obtain ⟨m, res, h1, _⟩ := key (FilterBank.new 21 50.0) rfl
    have hs := computeResults_keeps h1
    obtain ⟨nb, sw, pc, mp, fb⟩ := m
    obtain ⟨rfl, rfl, rfl, rfl, e⟩ := hs
    obtain ⟨m', res', h2, _⟩ := key fb e
    exact ⟨_, _, m', res, res', rfl, h1, .compute .fresh h1, h2⟩
  · rw [onset_length]; norm_num [Variant.framesPerPatch]

end Visqol
