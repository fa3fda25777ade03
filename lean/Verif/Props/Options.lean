import Verif.Props.Mapping
import Verif.Props.Window
import Verif.Props.Self
import Verif.Props.Cli
import Verif.Props.Manager
import Verif.Props.QualityRounded
import Verif.Props.Drift
import Verif.Props.Witness
import Verif.Props.LoadingIeee

/-! # The options reach the result (C77) -/

set_option linter.unusedSectionVars false

namespace Visqol

section
variable {F : Type} [Flt F] [RustFft F]

theorem new_mapper {world : World F} {nb k : Nat} {v : Variant} {m : Manager F} (h : Manager.new world nb v k = .ok m) :
    m.numBands = nb ∧ m.searchWindow = k ∧ m.patchCreator = (match v with | .wideband _ => .vad 30 | .fullband _ => .image 20) ∧
      (∀ u, v = .wideband u → m.mapper = .speech (!u)) ∧
      ∀ path, v = .fullband path → ∃ model, world.svr path = some model ∧ m.mapper = .svr model := by
  unfold Manager.new at h
  cases v with
  | wideband u =>
    cases h
    exact ⟨rfl, rfl, rfl, fun u' hu => by cases hu; rfl, fun _ h => by cases h⟩
  | fullband path =>
    obtain ⟨model, h1, h⟩ := bind_ok h
    cases h
    exact ⟨rfl, rfl, rfl, (fun _ h => by cases h), fun path' hp => by cases hp; exact ⟨model, expect_ok h1, rfl⟩⟩

/-- What the fullband mode reports is what the model read from the given path says about the reported band similarities. -/
def ScoredBy (model : SvrModel F) (res : SimilarityResult F) : Prop :=
  ∃ features label, model.predict features = some label ∧ features.length = model.numFeatures ∧
    (∀ (i : Nat) v, res.fvnsim[i]? = some v → features[i]? = some (Flt.toF32 v)) ∧
    (∀ i : Nat, res.fvnsim.length ≤ i → i < model.numFeatures → features[i]? = some 0.0) ∧
    res.moslqo = if Flt.lt res.vnsim 0.15 then 1.0 else Flt.clamp (label.getD 0.0) 1.0 5.0

/-- C77, model file: a manager constructed for fullband with a model path scores, after any history, with the model found
at that path when it was constructed. -/
theorem C77_model {p : Profile} {world : World F} {nb k : Nat} {path : String} {m₀ m m' : Manager F}
    {ref deg : AudioSignal F} {res : SimilarityResult F} (hm : Manager.new world nb (.fullband path) k = .ok m₀)
    (ha : After p m₀ m) (h : m.computeResults p ref deg = .ok (m', res)) :
    res.fvnsim.length = nb ∧ ∃ model, world.svr path = some model ∧ nb ≤ model.numFeatures ∧ ScoredBy model res := by
  obtain ⟨h1, _, _, _, h5⟩ := new_mapper hm
  obtain ⟨model, h6, h7⟩ := h5 path rfl
  have hs := ha.sim
  have hb : m.numBands = nb := hs.1.trans h1
  obtain ⟨h8, h9⟩ := C68_svr (hs.2.2.2.1.trans h7) h
  exact ⟨((C05_shapes h).1).trans hb, model, h6, by omega, h9⟩

/-- C77, model file: if there is no model at the path, neither the library nor the tool gets as far as reading audio: the
constructor panics, and the tool writes nothing. -/
theorem C77_no_model (p : Profile) {world : World F} {path : String} (h : world.svr path = none) :
    (∀ nb k, Manager.new world nb (.fullband path) k = .error (.panic .expect)) ∧
    ∀ csv wr (a : CliArgs) pairs, a.variant = .fullband path → buildFilePairPaths csv a = .ok pairs →
      cliMain p world csv wr a = ([], .error (.panic .expect)) := by
  have h1 : ∀ nb k, Manager.new world nb (.fullband path) k = .error (.panic .expect) := by
    intro nb k
    simp [Manager.new, h, expect]
  refine ⟨h1, fun csv wr a pairs hv hp => ?_⟩
  simp only [cliMain, cliCompute, hp, hv, h1, ok_bind, error_bind]

/-- C77, the tool in fullband mode: every reported result has 32 bands and is scored by the model at the given path. -/
theorem C77_cli_fullband {p : Profile} {world : World F} {csv : String → CsvContent} {wr : String → Bool} {a : CliArgs}
    {path : String} (hv : a.variant = .fullband path) (h : (cliMain p world csv wr a).2 = .ok ()) :
    ∃ pairs rs model, world.svr path = some model ∧ cliMain p world csv wr a = writeResults wr a rs pairs ∧
      ∀ res ∈ rs, res.fvnsim.length = 32 ∧ ScoredBy model res := by
  obtain ⟨pairs, m, rs, _, h2, h3, h4⟩ := C15_ok_only h
  rw [hv] at h2
  obtain ⟨_, _, _, _, k5⟩ := new_mapper h2
  obtain ⟨model, k6, k7⟩ := k5 path rfl
  refine ⟨pairs, rs, model, k6, h4, fun res hr => ?_⟩
  obtain ⟨i, hi⟩ := List.getElem?_of_mem hr
  obtain ⟨hi', hi⟩ := List.getElem?_eq_some_iff.mp hi
  obtain ⟨m', hrun⟩ := (List.forall₂_iff_get.mp h3).2 i (by rw [(List.forall₂_iff_get.mp h3).1]; exact hi') hi'
  obtain ⟨ref, deg, _, _, _, hc⟩ := run_ok hrun
  obtain ⟨q1, model', q2, _, q3⟩ := C77_model h2 .fresh hc
  rw [k6] at q2
  cases q2
  rw [← hi]
  exact ⟨q1, q3⟩

end

/-- The documented wideband mapping; `unscaled` is the option `use_unscaled_speech_mos_mapping`. -/
noncomputable def documentedMos (unscaled : Bool) (vnsim : ℝ) : ℝ :=
  let fit : ℝ := 1155945.5 / 1000000 + Real.exp (4685115.3 / 1000000 * (vnsim - 765523.2 / 1000000))
  let scale : ℝ := if unscaled then 1 else 1203140.9 / 1000000
  if vnsim < 15 / 100 then 1 else max 1 (min 5 (fit * scale))

/-- C77, unscaled mapping: in wideband mode the MOS is the exponential fit of the reported `vnsim`, multiplied by
1.2031409 unless the unscaled mapping was asked for, limited to 1..5, and 1 below 0.15. -/
theorem C77_unscaled {p : Profile} {world : World ℝ} {nb k : Nat} {unscaled : Bool} {m₀ m m' : Manager ℝ}
    {ref deg : AudioSignal ℝ} {res : SimilarityResult ℝ} (hm : Manager.new world nb (.wideband unscaled) k = .ok m₀)
    (ha : After p m₀ m) (h : m.computeResults p ref deg = .ok (m', res)) :
    res.fvnsim.length = nb ∧ res.moslqo = documentedMos unscaled res.vnsim := by
  obtain ⟨h1, _, _, h4, _⟩ := new_mapper hm
  have hs := ha.sim
  refine ⟨((C05_shapes h).1).trans (hs.1.trans h1), ?_⟩
  have := C68_wideband (hs.2.2.2.1.trans (h4 unscaled rfl)) h
  unfold documentedMos
  rw [this]
  cases unscaled <;> rfl

/-- C77, the tool in wideband mode: every reported result has 21 bands and the MOS of the mapping asked for. -/
theorem C77_cli_wideband {p : Profile} {world : World ℝ} {csv : String → CsvContent} {wr : String → Bool} {a : CliArgs}
    {unscaled : Bool} (hv : a.variant = .wideband unscaled) (h : (cliMain p world csv wr a).2 = .ok ()) :
    ∃ pairs rs, cliMain p world csv wr a = writeResults wr a rs pairs ∧
      ∀ res ∈ rs, res.fvnsim.length = 21 ∧ res.moslqo = documentedMos unscaled res.vnsim := by
  obtain ⟨pairs, m, rs, _, h2, h3, h4⟩ := C15_ok_only h
  rw [hv] at h2
  refine ⟨pairs, rs, h4, fun res hr => ?_⟩
  obtain ⟨i, hi⟩ := List.getElem?_of_mem hr
  obtain ⟨hi', hi⟩ := List.getElem?_eq_some_iff.mp hi
  obtain ⟨m', hrun⟩ := (List.forall₂_iff_get.mp h3).2 i (by rw [(List.forall₂_iff_get.mp h3).1]; exact hi') hi'
  obtain ⟨ref, deg, _, _, _, hc⟩ := run_ok hrun
  rw [← hi]
  exact C77_unscaled h2 .fresh hc

open Ieee in
/-- C77, unscaled mapping in floating point, up to 3/1000000. -/
theorem C77_unscaled_rounded {F : Type} [Flt F] [RustFft F] [Ieee F] [Libm F] {p : Profile} {world : World F} {nb k : Nat}
    {unscaled : Bool} {m₀ m m' : Manager F} {ref deg : AudioSignal F} {res : SimilarityResult F}
    (hm : Manager.new world nb (.wideband unscaled) k = .ok m₀) (hnb : nb ≤ 32) (ha : After p m₀ m)
    (h : m.computeResults p ref deg = .ok (m', res)) (hf : ModerateSimilarities res) :
    ∃ y z : ℝ, val res.vnsim = .fin y ∧ val res.moslqo = .fin z ∧
      if Flt.lt res.vnsim 0.15 then z = 1
      else |z - max 1 (min 5 ((11559455 / 10 ^ 7 + Real.exp (46851153 / 10 ^ 7 * (y - 7655232 / 10 ^ 7))) *
        (if unscaled then 1 else 12031409 / 10 ^ 7)))| ≤ 3 / 1000000 := by
  obtain ⟨h1, _, _, h4, _⟩ := new_mapper hm
  have hs := ha.sim
  obtain ⟨y, z, q1, q2, q3⟩ := C68_wideband_rounded (hs.2.2.2.1.trans (h4 unscaled rfl)) (by rw [hs.1, h1]; exact hnb) h hf
  refine ⟨y, z, q1, q2, ?_⟩
  cases unscaled <;> exact q3

/-- A column chosen for a patch lies in the search window of the patch. -/
theorem Within.chosen {ix : List Nat} {sw N : Nat} {c : List (Option Nat)} (h : Within ix sw N c) {j o : Nat}
    (hj : c[j]? = some (some o)) : InWindow ix sw N j o := by
  have hl : j < c.length := (List.getElem?_eq_some_iff.mp hj).1
  obtain ⟨o', h1, h2⟩ := h.window j hl
  rw [List.take_add_one, hj, Option.toList_some, latest_concat] at h1
  cases h1
  exact h2

/-- The search windows of the patches of a comparison contain something and the similarities in them are positive. -/
structure PositiveWindows (p : Profile) {nb : Nat} {fb : FilterBank ℝ} {ref deg : AudioSignal ℝ} {w : AnalysisWindow ℝ}
    {pc : PatchCreator} {mapper : QualityMapper ℝ} {sw : Nat} {res : SimilarityResult ℝ}
    (st : Stages p nb fb ref deg w pc mapper sw res) (reach : Nat) : Prop where
  reached : ∀ i ∈ st.ix, i < st.degM.ncols + reach
  positive : ∀ n < st.coarse.length, ∀ o, InWindow st.ix reach st.degM.ncols n o → 0 < simAt p st.patches st.degM n o

/-- C77, search radius: a manager constructed with search radius `k` looks, after any history, `k` patches of frames to either
side of a reference patch.  If the similarities in these windows are positive, no choice of matches within the windows has a
larger total similarity than the one made, and in the result every patch is unmatched or its position in the degraded
signal differs from that in the reference by at most `k` patch durations, plus half a patch and half a sample for fine
alignment. -/
theorem C77_radius {p : Profile} {world : World ℝ} {nb k : Nat} {v : Variant} {m₀ m m' : Manager ℝ}
    {ref deg : AudioSignal ℝ} {res : SimilarityResult ℝ} (hm : Manager.new world nb v k = .ok m₀) (ha : After p m₀ m)
    (hsr : ref.sampleRate = deg.sampleRate) (h0 : 0 < ref.sampleRate)
    (hlen : ref.data.length + deg.data.length < 1073741824)
    (hbig : ref.data.length + k * v.framesPerPatch ≤ 2147483647)
    (h : m.computeResults p ref deg = .ok (m', res)) :
    ∃ al lag, globallyAlign p ref deg = .ok (some (al, lag)) ∧
      ∃ st : Stages p m.numBands m.filterBank ref al (AnalysisWindow.mk' ref.sampleRate 0.25 0.08) m.patchCreator
        m.mapper m.searchWindow res, PositiveWindows p st (k * v.framesPerPatch) →
      (∃ c, c.length = st.coarse.length ∧ Within st.ix (k * v.framesPerPatch) st.degM.ncols c ∧
        totalSim (simAt p st.patches st.degM) c = (st.coarse.map PatchSim.similarity).sum ∧
        ∀ c', c'.length = st.coarse.length → Within st.ix (k * v.framesPerPatch) st.degM.ncols c' →
          totalSim (simAt p st.patches st.degM) c' ≤ totalSim (simAt p st.patches st.degM) c) ∧
      ∀ r ∈ res.patchSims, Unmatched r ∨
        |r.degStart - r.refStart| ≤ (k + 1 / 2) * (v.framesPerPatch *
          ((AnalysisWindow.mk' (F := ℝ) ref.sampleRate 0.25 0.08).size / (4 * ref.sampleRate))) + 1 / (2 * ref.sampleRate) := by
  obtain ⟨_, h2, h3, _, _⟩ := new_mapper hm
  have hs := ha.sim
  have hk : m.searchWindow = k := hs.2.1.trans h2
  have hpc : m.patchCreator = .vad 30 ∨ m.patchCreator = .image 20 := by
    rw [hs.2.2.1, h3]; cases v <;> simp
  have hps : m.patchCreator.patchSize = v.framesPerPatch := by
    rw [hs.2.2.1, h3]; cases v <;> rfl
  have hpp1 : 1 ≤ v.framesPerPatch := by cases v <;> simp [Variant.framesPerPatch]
  have hpp2 : v.framesPerPatch ≤ 30 := by cases v <;> simp [Variant.framesPerPatch]
  have hkb : k ≤ 2147483647 := by nlinarith
  obtain ⟨al, lag, hal, ⟨st⟩⟩ := computeResults_stages h
  refine ⟨al, lag, hal, st, fun hw => ?_⟩
  obtain ⟨hreach, hpos⟩ := hw
  obtain ⟨w1, w2, n1, n2, c1, c2⟩ := st.shapes
  obtain ⟨p1, p2⟩ := createPatches_ok st.created w1
  have hlal := globallyAlign_length hal
  have hcd := @numColumns_le al.data.length (AnalysisWindow.mk' (F := ℝ) ref.sampleRate 0.25 0.08).size
      (AnalysisWindow.mk' (F := ℝ) ref.sampleRate 0.25 0.08).hop
  have hcr := @numColumns_le ref.data.length (AnalysisWindow.mk' (F := ℝ) ref.sampleRate 0.25 0.08).size
      (AnalysisWindow.mk' (F := ℝ) ref.sampleRate 0.25 0.08).hop
  rw [← c1] at hcr
  rw [← c2] at hcd
  have hin : ∀ i ∈ st.ix, i + v.framesPerPatch ≤ st.refM.ncols := by
    intro i hi
    obtain ⟨j, hj⟩ := List.getElem?_of_mem hi
    rw [← hps]
    exact (createPatches_get st.created hj).2
  have hsorted := (st.sorted_ix hpc (by omega)).1
  have hfound := st.found
  have hwrap : wrapI32 (m.searchWindow : Int) = (k : Int) := by
    rw [hk]; exact wrapI32_of_mem (by omega) (by omega)
  rw [hwrap] at hfound
  have hdeg : 0 < st.degM.ncols := by
    rw [c2]; unfold numColumns; exact Nat.lt_of_lt_of_le Nat.zero_lt_one (Nat.le_add_right _ _)
  have hixl : st.ix.length ≤ st.refM.ncols := by
    have hsub : st.ix.toFinset ⊆ Finset.range st.refM.ncols := by
      intro i hi
      have := hin i (List.mem_toFinset.mp hi)
      exact Finset.mem_range.mpr (by omega)
    have := Finset.card_le_card hsub
    rwa [List.toFinset_card_of_nodup (hsorted.imp (fun h => Nat.ne_of_lt h)), Finset.card_range] at this
  obtain ⟨c, k1, k2, k3, k4, k5⟩ := C72_window (nb := m.numBands) (pp := v.framesPerPatch) hfound p1
    (fun q hq => ⟨(p2 q hq).1, (p2 q hq).2.1.trans n1, (p2 q hq).2.2.trans hps⟩) w2 (by omega) (by omega) (by omega)
    (fun i hi => by have := hin i hi; omega) hsorted hdeg hreach hpos
  refine ⟨⟨c, k1, k2, k4, k5⟩, fun r' hr' => ?_⟩
  have htimes := C52_coarse_times (pp := v.framesPerPatch) hfound p1 (fun q hq => (p2 q hq).2.2.trans hps) w2
    (by unfold usizeMod; omega)
  have hov : (AnalysisWindow.mk' (F := ℝ) ref.sampleRate 0.25 0.08).overlap = 1 / 4 := by
    unfold AnalysisWindow.mk'
    simp only [real_sci]; norm_num
  have hsl := st.hsr
  have hfine := st.fine
  generalize hW : (AnalysisWindow.mk' (F := ℝ) ref.sampleRate 0.25 0.08).size = W at *
  rw [hov] at htimes k3
  simp only [real_ofNat] at htimes k3
  have hR : (0 : ℝ) < ref.sampleRate := by exact_mod_cast h0
  have hW0 : (0 : ℝ) ≤ W := Nat.cast_nonneg _
  have hWl : (W : ℝ) ≤ 1073741824 := by
    have : W ≤ 1073741824 := by omega
    exact_mod_cast this
  generalize hfd : (W : ℝ) * (1 / 4) / (ref.sampleRate : ℝ) = fd at *
  have hfd0 : 0 ≤ fd := by rw [← hfd]; positivity
  have hfdR : fd * ref.sampleRate = W / 4 := by rw [← hfd]; field_simp
  have hfd' : (W : ℝ) / (4 * ref.sampleRate) = fd := by rw [← hfd]; field_simp
  rw [hfd']
  obtain ⟨j, hj⟩ := List.getElem?_of_mem hr'
  obtain ⟨e1, e2⟩ := finelyAlign_each hfine
  have hjl : j < st.coarse.length := by
    rw [← e1]; exact (List.getElem?_eq_some_iff.mp hj).1
  obtain ⟨r, x, q, q1, q2, q3, q4⟩ := k3 j hjl
  obtain ⟨f, f', r'', e3, e4, _⟩ := e2 j r q1
  rw [hj] at e4
  cases e4
  obtain ⟨t1, ⟨i, t2, t3⟩, _⟩ := htimes j r q1
  cases x with
  | none =>
    left
    have q4 : Unmatched r := q4
    unfold finelyAlignPatch at e3
    rw [if_pos (by rw [q4.start, q4.stop]; simp [real_lit0])] at e3
    cases e3
    exact q4
  | some o =>
    right
    have q4 : MatchedAt p st.degM q fd (fd * v.framesPerPatch) o r := q4
    have hds : r.degStart = (o : ℝ) * fd := q4.start
    obtain ⟨i', y1, y2, y3, y4⟩ := k2.chosen q2
    rw [t2] at y1
    cases y1
    have hi := hin i (List.mem_of_getElem? t2)
    have z1 : (i : ℝ) ≤ o + k * v.framesPerPatch := by exact_mod_cast y2
    have z2 : (o : ℝ) ≤ i + k * v.framesPerPatch := by exact_mod_cast y3
    have hi0 : (0 : ℝ) ≤ i := Nat.cast_nonneg _
    have hpr : (1 : ℝ) ≤ v.framesPerPatch := by exact_mod_cast hpp1
    have hk0 : (0 : ℝ) ≤ k := Nat.cast_nonneg _
    have hipp : (i : ℝ) + v.framesPerPatch ≤ 1073741825 := by
      have : i + v.framesPerPatch ≤ 1073741825 := by omega
      exact_mod_cast this
    have g1 : ((i : ℝ) - o) * fd ≤ k * v.framesPerPatch * fd := mul_le_mul_of_nonneg_right (by linarith) hfd0
    have g2 : ((o : ℝ) - i) * fd ≤ k * v.framesPerPatch * fd := mul_le_mul_of_nonneg_right (by linarith) hfd0
    have hhalf : 0 ≤ (v.framesPerPatch : ℝ) * fd := by positivity
    have hone : 0 ≤ 1 / (2 * (ref.sampleRate : ℝ)) := by positivity
    have hend : r.refEnd * ref.sampleRate = (i + v.framesPerPatch) * (W / 4) := by
      rw [t1, t3, ← hfdR]; ring
    have hstart : r.refStart * ref.sampleRate = i * (W / 4) := by
      rw [t3, ← hfdR]; ring
    have hfits : r.refEnd * ref.sampleRate < 18446744073709551616 := by
      rw [hend]
      refine lt_of_le_of_lt (mul_le_mul hipp (div_le_div_of_nonneg_right hWl (by norm_num)) (by positivity) (by norm_num)) ?_
      norm_num
    rw [sub_mul] at g1 g2
    have hexp : ((k : ℝ) + 1 / 2) * (v.framesPerPatch * fd) = k * v.framesPerPatch * fd + v.framesPerPatch * fd / 2 := by ring
    rw [hexp]
    obtain e | ⟨_, lag, g3, g4⟩ := C52_fine_times e3 (by show _ = al.sampleRate; rw [hsr]; exact (C39_only_shifts hal).1.symm) h0
      (by rw [t3]; positivity) (by rw [t1]; exact le_add_of_nonneg_right (by positivity)) hfits
    · rw [e, hds, t3, abs_le]
      constructor <;> linarith only [g1, g2, hhalf, hone]
    · have hlag : (lag : ℝ) / ref.sampleRate ≤ v.framesPerPatch * fd / 2 + 1 / (2 * ref.sampleRate) := by
        rw [hend, hstart] at g3
        have a1 : (lag : ℝ) * 2 + ⌊(i : ℝ) * (W / 4)⌋₊ ≤ ⌊((i : ℝ) + v.framesPerPatch) * (W / 4)⌋₊ := by
          have hmono : ⌊(i : ℝ) * (W / 4)⌋₊ ≤ ⌊((i : ℝ) + v.framesPerPatch) * (W / 4)⌋₊ :=
            Nat.floor_mono (mul_le_mul_of_nonneg_right (by linarith) (by positivity))
          have : lag * 2 + ⌊(i : ℝ) * (W / 4)⌋₊ ≤ ⌊((i : ℝ) + v.framesPerPatch) * (W / 4)⌋₊ := by omega
          exact_mod_cast this
        have a2 : (⌊((i : ℝ) + v.framesPerPatch) * (W / 4)⌋₊ : ℝ) ≤ ((i : ℝ) + v.framesPerPatch) * (W / 4) := Nat.floor_le (by positivity)
        have a3 := Nat.lt_floor_add_one ((i : ℝ) * (W / 4))
        rw [div_le_iff₀ hR, add_mul, div_mul_eq_mul_div, mul_assoc, hfdR]
        have : 1 / (2 * (ref.sampleRate : ℝ)) * ref.sampleRate = 1 / 2 := by field_simp
        rw [this]
        linarith
      have hlag0 : 0 ≤ (lag : ℝ) / ref.sampleRate := by positivity
      rcases g4 with ⟨a, b⟩ | ⟨a, b⟩
      all_goals
        rw [a, b, hds, t3, abs_le]
        constructor <;> linarith only [g1, g2, hhalf, hone, hlag, hlag0]

/-- The hypotheses of `C77_model`, `C77_unscaled` and, up to the similarities, `C77_radius`: a second comparison by a manager
that has been used, in either mode. -/
example (p : Profile) (u : Bool) :
    (∃ m₀ m m' m'' res res', Manager.new demoWorld 32 (.fullband "model.txt") 60 = .ok m₀ ∧ After p m₀ m ∧
      m₀.computeResults p (steadySignal 40000 20000) (steadySignal 41000 9000) = .ok (m, res') ∧
      m'.computeResults p (steadySignal 40000 20000) (steadySignal 41000 9000) = .ok (m'', res) ∧ After p m₀ m') ∧
    ∃ m m' res, Manager.new demoWorld 21 (.wideband u) 60 = .ok m ∧ After p m m ∧
      m.computeResults p (steadySignal 40000 20000) (steadySignal 41000 9000) = .ok (m', res) ∧
      (steadySignal 40000 20000).data.length + (steadySignal 41000 9000).data.length < 1073741824 ∧
      (steadySignal 40000 20000).data.length + 60 * Variant.framesPerPatch (.wideband u) ≤ 2147483647 := by
  constructor
  · obtain ⟨⟨m', res, h⟩, _⟩ := fullband_run p (le_refl 40000) (by omega) (by omega : 40000 ≤ 41000) (by omega)
      demo_i16.1 demo_i16.2 demo_ref demo_deg (path := "model.txt") rfl rfl
    exact ⟨_, m', _, m', res, res, rfl, .compute .fresh h, h, h, .fresh⟩
  · obtain ⟨⟨m', res, h⟩, _⟩ := wideband_run p (le_refl 40000) (by omega) (by omega : 40000 ≤ 41000) (by omega)
      (by omega : (0 : Int) < 20000) demo_i16.1 demo_i16.2 demo_ref demo_deg (u := u) rfl
    refine ⟨_, m', res, rfl, .fresh, h, ?_, ?_⟩
    · rw [steady_length, steady_length]; norm_num
    · rw [steady_length]; norm_num [Variant.framesPerPatch]

/-- The hypotheses of `C77_cli_fullband` and, with other arguments, `C77_cli_wideband`: the tool ends normally. -/
example (p : Profile) (u : Bool) (wr : String → Bool) (csv : String → CsvContent) :
    (cliMain p demoWorld csv wr ⟨.fullband "model.txt", none, some "ref.wav", some "deg.wav", none, false, none, 60⟩).2 = .ok () ∧
    (cliMain p demoWorld csv wr ⟨.wideband u, none, some "ref.wav", some "deg.wav", none, false, none, 60⟩).2 = .ok () := by
  constructor
  · obtain ⟨_, m', res, h⟩ := fullband_run p (le_refl 40000) (by omega) (by omega : 40000 ≤ 41000) (by omega)
      demo_i16.1 demo_i16.2 demo_ref demo_deg (path := "model.txt") rfl rfl
    rw [(C15_batch_ok (pairs := [⟨"ref.wav", "deg.wav"⟩]) (rs := [res]) rfl rfl (.cons ⟨m', h⟩ .nil)).2]
    rfl
  · obtain ⟨_, m', res, h⟩ := wideband_run p (le_refl 40000) (by omega) (by omega : 40000 ≤ 41000) (by omega)
      (by omega : (0 : Int) < 20000) demo_i16.1 demo_i16.2 demo_ref demo_deg (u := u) rfl
    rw [(C15_batch_ok (pairs := [⟨"ref.wav", "deg.wav"⟩]) (rs := [res]) rfl rfl (.cons ⟨m', h⟩ .nil)).2]
    rfl

/-- The hypothesis of `C77_no_model`. -/
example : ∃ world : World ℝ, world.svr "missing.txt" = none ∧ ∃ model, world.svr "model.txt" = some model :=
  ⟨⟨fun _ => .unreadable, fun path => if path = "model.txt" then some ⟨32, fun _ => none⟩ else none⟩, by simp, _, by simp; rfl⟩

/-- The hypotheses of `C77_unscaled_rounded`. -/
example (p : Profile) (world : World B64) (u : Bool) (hr : world.wav "ref.wav" = .wav 1 16000 16 (some (List.replicate 40000 32767)))
    (hd : world.wav "deg.wav" = .wav 1 16000 16 (some (List.replicate 41000 1000))) :
    ∃ m m' ref deg res, Manager.new world 21 (.wideband u) 60 = .ok m ∧ m.computeResults p ref deg = .ok (m', res) ∧ ModerateSimilarities res := by
  obtain ⟨m, h1, m', res, h2, h3⟩ := full_scale_run p world u hr hd
  obtain ⟨ref, deg, _, _, _, h4⟩ := run_ok h2
  exact ⟨m, m', ref, deg, res, h1, h4, h3.bands⟩

end Visqol
