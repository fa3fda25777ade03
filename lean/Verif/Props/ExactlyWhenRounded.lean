import Verif.Props.ExactlyWhen
import Verif.Props.AllNumbers

/-! # C93 in double precision: exactly when a comparison of ordinary signals succeeds -/

set_option linter.unusedSectionVars false

namespace Visqol
open Ieee

section
variable {F : Type} [Flt F] [RustFft F]

/-- What success requires, in any arithmetic that computes the window size as expected. -/
theorem success_requires {p : Profile} {m : Manager F} {ref deg al : AudioSignal F} {lag : F}
    (hal : globallyAlign p ref deg = .ok (some (al, lag)))
    (w1 : (AnalysisWindow.mk' (F := F) ref.sampleRate 0.25 0.08).size = windowSamples ref.sampleRate)
    (w2 : (AnalysisWindow.mk' (F := F) ref.sampleRate 0.25 0.08).hop = windowSamples ref.sampleRate / 4)
    (hpc : m.patchCreator = .vad 30 ∨ m.patchCreator = .image 20) (h50 : 50 ≤ ref.sampleRate)
    (hsmall : 2 * (ref.data.length + deg.data.length) + 30 * m.searchWindow < 2147483647)
    (h : ∃ x, m.computeResults p ref deg = .ok x) :
    windowSamples ref.sampleRate ≤ ref.data.length ∧ windowSamples ref.sampleRate ≤ al.data.length ∧
      ∃ ix, m.patchCreator.indices p (columnCount ref.sampleRate ref.data.length) ref (AnalysisWindow.mk' ref.sampleRate 0.25 0.08) = .ok ix ∧
        (∃ i ∈ ix, m.patchCreator.patchSize / 2 ≤ i ∧ i ≤ columnCount ref.sampleRate al.data.length + m.patchCreator.patchSize / 2) ∧
        ∀ i ∈ ix, i ≤ columnCount ref.sampleRate al.data.length + m.searchWindow * m.patchCreator.patchSize := by
  have hP : 20 ≤ m.patchCreator.patchSize ∧ m.patchCreator.patchSize ≤ 30 := by
    rcases hpc with h | h <;> rw [h] <;> decide
  have hlal := globallyAlign_length hal
  obtain ⟨⟨m', res⟩, h⟩ := h
  obtain ⟨al', lag', hal', ⟨st⟩⟩ := computeResults_stages h
  rw [hal] at hal'
  cases hal'
  obtain ⟨s1, s2, s3, s4, s5, s6⟩ := st.shapes
  have hsr' := st.hsr
  have hsd := st.hsd
  have hix := st.ixs
  obtain ⟨c1, c2⟩ := createPatches_ok st.created s1
  have hpp : ∀ q ∈ st.patches, q.ncols = m.patchCreator.patchSize := fun q hq => (c2 q hq).2.2
  rw [w1] at hsr' hsd
  rw [w1, w2, ← columnCount_eq] at s5 s6
  rw [s5] at hix
  have b1 := columnCount_le (len := ref.data.length) h50
  have b2 := columnCount_le (len := al.data.length) h50
  refine ⟨hsr', hsd, st.ix, hix, ?_, ?_⟩
  · obtain ⟨_, _, ⟨i, h3, h4, h5⟩, _⟩ := calcMaxLoop_spec (lt_usizeMod (by omega)) (find_calcMax st.found c1 hpp) (le_refl _)
    rw [s6] at h5
    exact ⟨i, List.mem_of_getElem? h3, h4, h5⟩
  · intro i hi
    obtain ⟨t1, t2, t3⟩ := reach_bounds hP.1 hP.2 (show 30 * m.searchWindow + columnCount ref.sampleRate ref.data.length ≤ 2147483647 by omega)
    refine Nat.le_of_not_lt fun hfar => ?_
    obtain ⟨q, hq⟩ := C61_out_of_reach (p := p) (deg := st.degM)
      (fd := Flt.ofNat (AnalysisWindow.mk' (F := F) ref.sampleRate 0.25 0.08).size *
        (AnalysisWindow.mk' (F := F) ref.sampleRate 0.25 0.08).overlap / Flt.ofNat ref.sampleRate)
      (radius := wrapI32 m.searchWindow) c1 hpp t2 (by rw [t1]; exact Int.natCast_nonneg _)
      (by
        intro j hj
        obtain ⟨k, hk⟩ := List.getElem?_of_mem hj
        obtain ⟨_, g1⟩ := createPatches_get st.created hk
        rw [t1]
        exact t3 j (by rw [s5] at g1; exact g1)) hi
      (by rw [t1, s6]; exact_mod_cast hfar)
    have := st.found
    rw [hq] at this
    cases this

/-- The patches of a fullband reference. -/
theorem image_conditions (p : Profile) {ref : AudioSignal F} (w : AnalysisWindow F) {R D sw : Nat} :
    (∃ ix, (PatchCreator.image 20).indices p R ref w = .ok ix ∧ (∃ i ∈ ix, 10 ≤ i ∧ i ≤ D + 10) ∧ ∀ i ∈ ix, i ≤ D + sw * 20) ↔
      51 ≤ R ∧ 19 ≤ D ∧ ∀ j, 9 + 20 * j + 21 < R → 9 + 20 * j ≤ D + 20 * sw := by
  constructor
  · rintro ⟨ix, hix, ⟨i, hi, u1, u2⟩, hreach⟩
    by_cases h30 : R < 30
    · exact absurd hix (indices_short_image p h30 _ _ _)
    obtain ⟨k, _, t1, t2, _⟩ := C25_tiling p (m := (⟨R, []⟩ : Mat F)) (by show 30 ≤ R; omega) ref w
    change (PatchCreator.image 20).indices p R ref _ = _ at t1
    rw [t1] at hix
    cases hix
    obtain ⟨j, hj, rfl⟩ := List.mem_map.mp hi
    have hj' : 9 + 20 * j < max (R - 21) 10 := (t2 j).mp (List.mem_range.mp hj)
    refine ⟨by omega, by omega, fun j hj => ?_⟩
    have := hreach (9 + 20 * j) (List.mem_map.mpr ⟨j, List.mem_range.mpr ((t2 j).mpr (by show _ < max (R - 21) 10; omega)), rfl⟩)
    omega
  · rintro ⟨h51, h19, hreach⟩
    obtain ⟨k, _, t1, t2, _⟩ := C25_tiling p (m := (⟨R, []⟩ : Mat F)) (by show 30 ≤ R; omega) ref w
    refine ⟨_, t1, ⟨29, List.mem_map.mpr ⟨1, List.mem_range.mpr ((t2 1).mpr ?_), rfl⟩, by omega, by omega⟩, ?_⟩
    · show 9 + 20 * 1 < max (R - 21) 10
      omega
    · intro i hi
      obtain ⟨j, hj, rfl⟩ := List.mem_map.mp hi
      have hj' : 9 + 20 * j < max (R - 21) 10 := (t2 j).mp (List.mem_range.mp hj)
      have := hreach j (by omega)
      omega

end

variable {F : Type} [Flt F] [Ieee F] [RustFft F] [BoundedFft F] [Libm F]

/-- Shifting adds zeros only. -/
theorem pw_aligned {p : Profile} {ref deg al : AudioSignal F} {t : F} {k : ℕ} (h : ∀ a ∈ deg.data, Pw k a)
    (ha : globallyAlign p ref deg = .ok (some (al, t))) : ∀ a ∈ al.data, Pw k a := by
  obtain ⟨_, ⟨e, _⟩ | ⟨lag, _, _, _, ⟨_, _, e⟩ | ⟨_, e⟩⟩⟩ := C39_only_shifts ha
  · rw [e]; exact h
  · rw [e]; exact fun a ha => h a (List.mem_of_mem_drop ha)
  · rw [e]
    intro a ha
    rcases List.mem_append.mp ha with h1 | h1
    · rw [List.eq_of_mem_replicate h1]; exact ⟨0, val_0, by simp⟩
    · exact h a h1

/-- Success of a comparison of ordinary signals, given the alignment, in terms of the patches of the reference. -/
theorem succeeds_iff_rounded (p : Profile) (m : Manager F) {ref deg al : AudioSignal F} {lag : F}
    (hal : globallyAlign p ref deg = .ok (some (al, lag)))
    (hpc : m.patchCreator = .vad 30 ∨ m.patchCreator = .image 20) (hnb : 0 < m.numBands) (hnb2 : m.numBands ≤ 64)
    (hmf : m.filterBank.minFreq = 50.0)
    (hmap : ∀ v : List F, v.length = m.numBands → (∀ a ∈ v, Pw 18 a) → ∃ q, m.mapper.predict v = .ok q ∧ val q ≠ .nan)
    (hsr : ref.sampleRate = deg.sampleRate) (h1k : 1000 ≤ ref.sampleRate) (h1m : ref.sampleRate ≤ 1000000)
    (hsmall : 2 * (ref.data.length + deg.data.length) + 30 * m.searchWindow < 2147483647)
    (hrs : OrdinarySamples ref) (hds : OrdinarySamples deg) (hl : SoundFrom 0 al)
    (hd1 : SmallDrift ref.sampleRate ref.data.length)
    (hd2 : SmallDrift ref.sampleRate (deg.data.length + ref.data.length / 2)) :
    ((∃ x, m.computeResults p ref deg = .ok x) ↔
      windowSamples ref.sampleRate ≤ ref.data.length ∧ windowSamples ref.sampleRate ≤ al.data.length ∧
      ∃ ix, m.patchCreator.indices p (columnCount ref.sampleRate ref.data.length) ref (AnalysisWindow.mk' ref.sampleRate 0.25 0.08) = .ok ix ∧
        (∃ i ∈ ix, m.patchCreator.patchSize / 2 ≤ i ∧ i ≤ columnCount ref.sampleRate al.data.length + m.patchCreator.patchSize / 2) ∧
        ∀ i ∈ ix, i ≤ columnCount ref.sampleRate al.data.length + m.searchWindow * m.patchCreator.patchSize) ∧
    ∀ m' res, m.computeResults p ref deg = .ok (m', res) → FiniteScores res := by
  obtain ⟨w1, w2, w3⟩ := ieee_window_facts (F := F) (sr := ref.sampleRate) (by omega) (by omega)
  have w4 : windowSamples ref.sampleRate ≤ 2 ^ 17 := by unfold windowSamples; omega
  have hlal := globallyAlign_length hal
  have hals := (C39_only_shifts hal).1
  have hneed := success_requires (m := m) hal w1 w2 hpc (by omega) hsmall
  have hconv : (windowSamples ref.sampleRate ≤ ref.data.length ∧ windowSamples ref.sampleRate ≤ al.data.length ∧
      ∃ ix, m.patchCreator.indices p (columnCount ref.sampleRate ref.data.length) ref (AnalysisWindow.mk' ref.sampleRate 0.25 0.08) = .ok ix ∧
        (∃ i ∈ ix, m.patchCreator.patchSize / 2 ≤ i ∧ i ≤ columnCount ref.sampleRate al.data.length + m.patchCreator.patchSize / 2) ∧
        ∀ i ∈ ix, i ≤ columnCount ref.sampleRate al.data.length + m.searchWindow * m.patchCreator.patchSize) →
      ∃ m' res, m.computeResults p ref deg = .ok (m', res) ∧ FiniteScores res := by
    rintro ⟨h1, h2, ix, hix, huse, hreach⟩
    have pw : ∀ s : AudioSignal F, OrdinarySamples s → ∀ a ∈ s.data, Pw 1 a := fun s hs a ha => by
      obtain ⟨x, h1, h2⟩ := hs a ha
      exact ⟨x, h1, by norm_num; exact h2⟩
    have mono2 := numColumns_mono (W := windowSamples ref.sampleRate) (H := windowSamples ref.sampleRate / 4) hlal
    unfold SmallDrift at hd1 hd2
    have hloud : ∃ a ∈ al.data, ∃ v, Is a v ∧ 1 / 2 ^ 40 ≤ |v| := by
      obtain ⟨a, ha, hv⟩ := hl
      exact ⟨a, by simpa using ha, hv⟩
    clear hneed
    simp only [columnCount_eq] at *
    obtain ⟨fb, x, hx, hfin⟩ := calculateSimilarity_total' (p := p) (nb := m.numBands) (sw := m.searchWindow) (pc := m.patchCreator) (mapper := m.mapper)
      (ref := ref) (deg := al) (ix := ix) (fb := m.filterBank) (hsr.trans hals.symm) (w := AnalysisWindow.mk' ref.sampleRate 0.25 0.08) rfl
      { creator := hpc, bands := hnb, bandsFew := by omega, rate := by omega, rateU32 := by omega
        bank := by rw [hmf]; exact tameBank h1k h1m hnb hnb2
        freqs := by rw [hmf]; exact freqsOk h1k h1m hnb hnb2
        hop := by rw [w1, w2], long := by omega, short := by omega, refLong := by omega, degLong := by omega, small := by omega
        refSamples := pw _ hrs, degSamples := pw_aligned (pw _ hds) hal, loud := hloud
        patches := by rw [w1, w2]; exact hix
        usable := by rw [w1, w2]; exact huse
        reach := by rw [w1, w2]; exact hreach
        refDrift := by rw [w1, w2]; exact hd1
        degDrift := by rw [w1, w2]; exact (Nat.mul_le_mul_right _ mono2).trans hd2
        mapping := hmap }
    refine ⟨{ m with filterBank := fb }, x, ?_, hfin⟩
    unfold Manager.computeResults
    rw [bind_of_ok hal]
    dsimp only
    rw [bind_of_ok hx]
  refine ⟨⟨hneed, fun h => ?_⟩, fun m' res h => ?_⟩
  · obtain ⟨m', res, h, _⟩ := hconv h
    exact ⟨_, h⟩
  · obtain ⟨m'', res', h', hf⟩ := hconv (hneed ⟨_, h⟩)
    rw [h] at h'
    cases h'
    exact hf

/-- C93, fullband, in double precision: `al` is the shifted degraded signal.  The comparison of ordinary signals succeeds exactly under the
conditions of exact arithmetic, and then its scores are numbers. -/
theorem C93_fullband_rounded (p : Profile) (m : Manager F) {ref deg al : AudioSignal F} {lag : F}
    (hal : globallyAlign p ref deg = .ok (some (al, lag)))
    (hpc : m.patchCreator = .image 20) (hnb : 0 < m.numBands) (hnb2 : m.numBands ≤ 64) (hmf : m.filterBank.minFreq = 50.0)
    (hmap : ∀ v : List F, v.length = m.numBands → (∀ a ∈ v, ∃ x, val a = .fin x ∧ |x| ≤ 2 ^ 18) →
      ∃ q, m.mapper.predict v = .ok q ∧ val q ≠ .nan)
    (hsr : ref.sampleRate = deg.sampleRate) (h1k : 1000 ≤ ref.sampleRate) (h1m : ref.sampleRate ≤ 1000000)
    (hsmall : 2 * (ref.data.length + deg.data.length) + 30 * m.searchWindow < 2147483647)
    (hrs : OrdinarySamples ref) (hds : OrdinarySamples deg) (hl : SoundFrom 0 al)
    (hd1 : SmallDrift ref.sampleRate ref.data.length)
    (hd2 : SmallDrift ref.sampleRate (deg.data.length + ref.data.length / 2)) :
    ((∃ x, m.computeResults p ref deg = .ok x) ↔
      windowSamples ref.sampleRate ≤ al.data.length ∧ 51 ≤ columnCount ref.sampleRate ref.data.length ∧
      19 ≤ columnCount ref.sampleRate al.data.length ∧
      ∀ j, 9 + 20 * j + 21 < columnCount ref.sampleRate ref.data.length →
        9 + 20 * j ≤ columnCount ref.sampleRate al.data.length + 20 * m.searchWindow) ∧
    ∀ m' res, m.computeResults p ref deg = .ok (m', res) → FiniteScores res := by
  obtain ⟨h1, h2⟩ := succeeds_iff_rounded p m hal (.inr hpc) hnb hnb2 hmf hmap hsr h1k h1m hsmall hrs hds hl hd1 hd2
  refine ⟨h1.trans ?_, h2⟩
  rw [hpc]
  rw [show (PatchCreator.image 20).patchSize = 20 from rfl, show 20 / 2 = 10 from rfl, image_conditions]
  have hRlen : windowSamples ref.sampleRate ≤ ref.data.length ∨ columnCount ref.sampleRate ref.data.length = 1 := by
    unfold columnCount
    by_cases h : windowSamples ref.sampleRate ≤ ref.data.length
    · exact .inl h
    · right
      rw [Nat.sub_eq_zero_of_le (by omega), Nat.zero_div]
  constructor
  · exact fun h => h.2
  · exact fun h => ⟨by omega, h⟩

/-- C93, wideband, in double precision: `norm` is the reference divided by its largest sample. -/
theorem C93_wideband_rounded (p : Profile) (m : Manager F) {ref deg al : AudioSignal F} {lag : F}
    (hal : globallyAlign p ref deg = .ok (some (al, lag)))
    (hpc : m.patchCreator = .vad 30) (hnb : 0 < m.numBands) (hnb2 : m.numBands ≤ 64) (hmf : m.filterBank.minFreq = 50.0)
    {scale : Bool} (hmap : m.mapper = .speech scale)
    (hsr : ref.sampleRate = deg.sampleRate) (h1k : 1000 ≤ ref.sampleRate) (h1m : ref.sampleRate ≤ 1000000)
    (hsmall : 2 * (ref.data.length + deg.data.length) + 30 * m.searchWindow < 2147483647)
    (hrs : OrdinarySamples ref) (hds : OrdinarySamples deg) (hl : SoundFrom 0 al)
    (hd1 : SmallDrift ref.sampleRate ref.data.length)
    (hd2 : SmallDrift ref.sampleRate (deg.data.length + ref.data.length / 2))
    {norm : List F} (hn : normalizeSignal ref.data = .ok norm) {kept : ℕ → Prop}
    (hkept : ∀ k, kept k ↔ 14 + 30 * k + 30 ≤ columnCount ref.sampleRate ref.data.length ∧
      ∃ f, 30 * k ≤ f ∧ f < 30 * k + 30 ∧ Active norm (windowSamples ref.sampleRate / 4) f) :
    ((∃ x, m.computeResults p ref deg = .ok x) ↔
      windowSamples ref.sampleRate ≤ al.data.length ∧
      (∃ k, 1 ≤ k ∧ kept k ∧ 14 + 30 * k ≤ columnCount ref.sampleRate al.data.length + 15) ∧
      ∀ k, kept k → 14 + 30 * k ≤ columnCount ref.sampleRate al.data.length + 30 * m.searchWindow) ∧
    ∀ m' res, m.computeResults p ref deg = .ok (m', res) → FiniteScores res := by
  obtain ⟨w1, w2, w3⟩ := ieee_window_facts (F := F) (sr := ref.sampleRate) (by omega) (by omega)
  have hmap' : ∀ v : List F, v.length = m.numBands → (∀ a ∈ v, Pw 18 a) → ∃ q, m.mapper.predict v = .ok q ∧ val q ≠ .nan := by
    intro v hv hpw
    obtain ⟨y, hy, _, _⟩ := speechQuality_num (s := scale) hpw (by norm_num) (by intro h; rw [h] at hv; simp at hv; omega) (by omega)
    refine ⟨speechQuality scale v, by rw [hmap]; rfl, ?_⟩
    rw [hy]
    exact fun h => by cases h
  obtain ⟨h1, h2⟩ := succeeds_iff_rounded p m hal (.inl hpc) hnb hnb2 hmf hmap' hsr h1k h1m hsmall hrs hds hl hd1 hd2
  refine ⟨?_, h2⟩
  by_cases h44 : columnCount ref.sampleRate ref.data.length < 44
  · constructor
    · rintro ⟨x, hx⟩
      exact absurd hx ((C27_short_wideband hpc (by omega) (by rw [w1, w2, ← columnCount_eq]; exact h44)).1 x)
    · rintro ⟨_, ⟨k, h1, h2, _⟩, _⟩
      have := ((hkept k).mp h2).1
      omega
  have hRlen : windowSamples ref.sampleRate ≤ ref.data.length := by
    by_contra h
    apply h44
    unfold columnCount
    rw [Nat.sub_eq_zero_of_le (by omega), Nat.zero_div]; omega
  obtain ⟨ix, t3, t4, _⟩ := (C26_wideband p (m := (⟨columnCount ref.sampleRate ref.data.length, []⟩ : Mat F))
    (w := AnalysisWindow.mk' ref.sampleRate 0.25 0.08) (ref := ref) (by omega) (by omega) (by omega)
    (by rw [w1, w2, ← columnCount_eq]) (by show 44 ≤ columnCount _ _; omega)).1 _ hn
  dsimp only at t3
  have t2 : ∀ k, 14 + 30 * k ∈ ix ↔ kept k := fun k => by
    rw [hkept, C30_kept_iff p (ref := ref) (w := AnalysisWindow.mk' ref.sampleRate 0.25 0.08) (by omega) (by omega) (by omega)
      (by rw [w1, w2, ← columnCount_eq]; omega) hn (by rw [w1, w2, ← columnCount_eq]; exact t3) k, w1, w2, ← columnCount_eq]
  have hform : ∀ i ∈ ix, ∃ k, i = 14 + 30 * k := fun i hi => by
    obtain ⟨k, _, hk⟩ := List.mem_map.mp (t4.subset hi)
    exact ⟨k, hk.symm⟩
  rw [h1, hpc]
  rw [show (PatchCreator.vad 30).patchSize = 30 from rfl, show 30 / 2 = 15 from rfl]
  generalize columnCount ref.sampleRate al.data.length = D
  constructor
  · rintro ⟨_, h2, ix', hix, ⟨i, hi, u1, u2⟩, hreach⟩
    rw [t3] at hix
    cases hix
    obtain ⟨k, rfl⟩ := hform i hi
    refine ⟨h2, ⟨k, by omega, (t2 k).mp hi, u2⟩, fun k hk => ?_⟩
    have := hreach _ ((t2 k).mpr hk)
    omega
  · rintro ⟨h2, ⟨k, k1, k2, k3⟩, hreach⟩
    refine ⟨hRlen, h2, ix, t3, ⟨_, (t2 k).mpr k2, by omega, by omega⟩, fun i hi => ?_⟩
    obtain ⟨j, rfl⟩ := hform i hi
    have := hreach j ((t2 j).mp hi)
    omega

/-- C92 for ordinary signals in double precision: given the alignment, an error is returned exactly if a signal is too short, and then
exactly the error that says so. -/
theorem C92_exactly_rounded {p : Profile} {m : Manager F} {ref deg al : AudioSignal F} {lag : F} {e : VisqolError}
    (hal : globallyAlign p ref deg = .ok (some (al, lag)))
    (hpc : m.patchCreator = .vad 30 ∨ m.patchCreator = .image 20) (hnb : 0 < m.numBands) (hnb2 : m.numBands ≤ 64)
    (hmf : m.filterBank.minFreq = 50.0)
    (hsr : ref.sampleRate = deg.sampleRate) (h1k : 1000 ≤ ref.sampleRate) (h1m : ref.sampleRate ≤ 1000000)
    (hr : 2 ≤ ref.data.length) (hd : deg.data ≠ []) (hlen : 2 * (ref.data.length + deg.data.length) < 2147483647)
    (hrs : OrdinarySamples ref) (hds : OrdinarySamples deg) (hl : SoundFrom 0 al) :
    m.computeResults p ref deg = .error (.err e) ↔
      rejection (m.patchCreator == .image 20) ref.sampleRate ref.data.length al.data.length = some e := by
  obtain ⟨f1, f2, f3⟩ := ieee_window_facts (F := F) (sr := ref.sampleRate) (by omega) (by omega)
  have hW : windowSamples ref.sampleRate ≤ 2 ^ 17 := by unfold windowSamples; omega
  have hlal := globallyAlign_length hal
  have hals := (C39_only_shifts hal).1
  constructor
  · intro h
    rcases C92_rounded h hpc (by omega) (by omega) hsr (by omega) with ⟨h1, _⟩ | ⟨_, _, al', lag', hal', h⟩
    · rcases h1 with h1 | h1 | ⟨h1, _⟩
      · rw [h1] at hr; simp at hr
      · exact absurd h1 hd
      · omega
    · rw [hal] at hal'
      cases hal'
      exact h
  · intro h
    have hc := C20_run (m := m) hal
    dsimp only at hc
    rw [f1] at hc
    unfold rejection at h
    split at h
    · rename_i hlt
      cases h
      exact hc.1 hlt
    rename_i hge
    have hfreq : FreqsOk m.numBands ref.sampleRate m.filterBank.minFreq := by rw [hmf]; exact freqsOk h1k h1m hnb hnb2
    have hbank : TameBank m.numBands ref.sampleRate m.filterBank.minFreq := by rw [hmf]; exact tameBank h1k h1m hnb hnb2
    obtain ⟨fb1, rs, b1, b2, b3⟩ := buildSpectrogram_total' m.numBands m.filterBank ref (AnalysisWindow.mk' ref.sampleRate 0.25 0.08)
      hfreq (by rw [f1]; omega) (by rw [f2]; omega) (by rw [f1]; omega)
    split at h
    · rename_i hlt
      cases h
      exact hc.2 _ b1 hlt
    rename_i hge2
    split at h
    swap
    · cases h
    rename_i hcol
    cases h
    simp only [Bool.and_eq_true, beq_iff_eq, decide_eq_true_eq] at hcol
    obtain ⟨him, hcol⟩ := hcol
    have pw : ∀ s : AudioSignal F, OrdinarySamples s → ∀ a ∈ s.data, Pw 1 a := fun s hs a ha => by
      obtain ⟨x, h1, h2⟩ := hs a ha
      exact ⟨x, h1, by norm_num; exact h2⟩
    have hloud : ∃ a ∈ al.data, ∃ v, Is a v ∧ 1 / 2 ^ 40 ≤ |v| := by
      obtain ⟨a, ha, hv⟩ := hl
      exact ⟨a, by simpa using ha, hv⟩
    have hsp := scale_pw (pw _ hrs) (pw_aligned (pw _ hds) hal) (by omega) (by omega) (by intro h; rw [h] at hr; simp at hr) hloud
    have hsl : (scaleToMatchSpl ref al).data.length = al.data.length := by show (List.map _ _).length = _; rw [List.length_map]
    have hsd : (scaleToMatchSpl ref al).sampleRate = ref.sampleRate := hals.trans hsr.symm
    obtain ⟨fb2, ds, c1, c2, _⟩ := buildSpectrogram_total' m.numBands fb1 (scaleToMatchSpl ref al) (AnalysisWindow.mk' ref.sampleRate 0.25 0.08)
      (by rw [hsd, b3]; exact hfreq) (by rw [f1, hsl]; omega) (by rw [f2]; omega) (by rw [f1]; omega)
    have hpos : ∀ a b c, 0 < numColumns a b c := fun a b c => by unfold numColumns; exact Nat.lt_of_lt_of_le Nat.one_pos (Nat.le_add_right _ _)
    have i1 : NoInf (spectroMat m.numBands m.filterBank.minFreq ref (AnalysisWindow.mk' ref.sampleRate 0.25 0.08)) :=
      spectroMat_noInf hbank (m := 100) (by norm_num) (fun a ha => (pw _ hrs a ha).mono (by norm_num)) (by rw [f1]; omega) (by rw [f1]; omega) (by rw [f1]; exact hW)
    have i2 : NoInf (spectroMat m.numBands fb1.minFreq (scaleToMatchSpl ref al) (AnalysisWindow.mk' ref.sampleRate 0.25 0.08)) :=
      spectroMat_noInf (by rw [hsd, b3]; exact hbank) (by norm_num) hsp (by rw [f1]; omega) (by rw [f1]; omega) (by rw [f1]; exact hW)
    obtain ⟨rm, dm, d1, _, _⟩ := prepare_pw (spectroMat_wf m.numBands m.filterBank.minFreq ref (AnalysisWindow.mk' ref.sampleRate 0.25 0.08))
      (spectroMat_wf m.numBands fb1.minFreq (scaleToMatchSpl ref al) (AnalysisWindow.mk' ref.sampleRate 0.25 0.08))
      (by rw [spectroMat_nrows]; exact hnb) (hpos _ _ _) (by rw [spectroMat_nrows]; exact hnb) (hpos _ _ _) i1 i2
    obtain ⟨_, _, _, _, q5, _⟩ := prepare_shape d1 (spectroMat_wf _ _ _ _) (spectroMat_wf _ _ _ _)
    have q5 : rm.ncols = columnCount ref.sampleRate ref.data.length := by
      rw [q5, columnCount_eq, ← f2, ← f1]; rfl
    unfold Manager.computeResults
    rw [hal, ok_bind]
    dsimp only
    unfold calculateSimilarity
    dsimp only
    rw [b1]
    simp only [ok_bind]
    rw [c1]
    simp only [ok_bind]
    rw [b2, c2, d1]
    simp only [ok_bind]
    rw [him, q5, C25_too_small p hcol]
    rfl

theorem panics_iff_rounded {p : Profile} {m : Manager F} {ref deg al : AudioSignal F} {lag : F}
    (hal : globallyAlign p ref deg = .ok (some (al, lag)))
    (hpc : m.patchCreator = .vad 30 ∨ m.patchCreator = .image 20) (hnb : 0 < m.numBands) (hnb2 : m.numBands ≤ 64)
    (hmf : m.filterBank.minFreq = 50.0)
    (hsr : ref.sampleRate = deg.sampleRate) (h1k : 1000 ≤ ref.sampleRate) (h1m : ref.sampleRate ≤ 1000000)
    (hr : 2 ≤ ref.data.length) (hd : deg.data ≠ []) (hlen : 2 * (ref.data.length + deg.data.length) < 2147483647)
    (hrs : OrdinarySamples ref) (hds : OrdinarySamples deg) (hl : SoundFrom 0 al) :
    (∃ q, m.computeResults p ref deg = .error (.panic q)) ↔
      (¬ ∃ x, m.computeResults p ref deg = .ok x) ∧
        rejection (m.patchCreator == .image 20) ref.sampleRate ref.data.length al.data.length = none := by
  have hex := fun e => C92_exactly_rounded (p := p) (m := m) (e := e) hal hpc hnb hnb2 hmf hsr h1k h1m hr hd hlen hrs hds hl
  constructor
  · rintro ⟨q, hq⟩
    refine ⟨fun ⟨x, hx⟩ => (by rw [hq] at hx; cases hx), ?_⟩
    cases hj : rejection (m.patchCreator == .image 20) ref.sampleRate ref.data.length al.data.length with
    | none => rfl
    | some e =>
      have := (hex e).mpr hj
      rw [hq] at this
      cases this
  · rintro ⟨h1, h2⟩
    rcases C92_or_panic p m ref deg with h | ⟨e, h⟩ | h
    · exact absurd h h1
    · rw [(hex e).mp h] at h2; cases h2
    · exact h

/-- C93, fullband, in double precision: exactly when the comparison panics. -/
theorem C93_fullband_panics_rounded (p : Profile) (m : Manager F) {ref deg al : AudioSignal F} {lag : F}
    (hal : globallyAlign p ref deg = .ok (some (al, lag)))
    (hpc : m.patchCreator = .image 20) (hnb : 0 < m.numBands) (hnb2 : m.numBands ≤ 64) (hmf : m.filterBank.minFreq = 50.0)
    (hmap : ∀ v : List F, v.length = m.numBands → (∀ a ∈ v, ∃ x, val a = .fin x ∧ |x| ≤ 2 ^ 18) →
      ∃ q, m.mapper.predict v = .ok q ∧ val q ≠ .nan)
    (hsr : ref.sampleRate = deg.sampleRate) (h1k : 1000 ≤ ref.sampleRate) (h1m : ref.sampleRate ≤ 1000000)
    (hr : 2 ≤ ref.data.length) (hd : deg.data ≠ [])
    (hsmall : 2 * (ref.data.length + deg.data.length) + 30 * m.searchWindow < 2147483647)
    (hrs : OrdinarySamples ref) (hds : OrdinarySamples deg) (hl : SoundFrom 0 al)
    (hd1 : SmallDrift ref.sampleRate ref.data.length)
    (hd2 : SmallDrift ref.sampleRate (deg.data.length + ref.data.length / 2)) :
    (∃ q, m.computeResults p ref deg = .error (.panic q)) ↔
      windowSamples ref.sampleRate ≤ al.data.length ∧ 30 ≤ columnCount ref.sampleRate ref.data.length ∧
      (columnCount ref.sampleRate ref.data.length < 51 ∨ columnCount ref.sampleRate al.data.length < 19 ∨
        ∃ j, 9 + 20 * j + 21 < columnCount ref.sampleRate ref.data.length ∧
          columnCount ref.sampleRate al.data.length + 20 * m.searchWindow < 9 + 20 * j) := by
  have hs := (C93_fullband_rounded p m hal hpc hnb hnb2 hmf hmap hsr h1k h1m hsmall hrs hds hl hd1 hd2).1
  rw [panics_iff_rounded hal (.inr hpc) hnb hnb2 hmf hsr h1k h1m hr hd (by omega) hrs hds hl, hs, hpc]
  have hRlen : windowSamples ref.sampleRate ≤ ref.data.length ∨ columnCount ref.sampleRate ref.data.length = 1 := by
    unfold columnCount
    by_cases h : windowSamples ref.sampleRate ≤ ref.data.length
    · exact .inl h
    · right
      rw [Nat.sub_eq_zero_of_le (by omega), Nat.zero_div]
  have hrej : rejection (PatchCreator.image 20 == .image 20) ref.sampleRate ref.data.length al.data.length = none ↔
      windowSamples ref.sampleRate ≤ al.data.length ∧ 30 ≤ columnCount ref.sampleRate ref.data.length := by
    unfold rejection
    rw [show (PatchCreator.image 20 == PatchCreator.image 20) = true from rfl]
    simp only [Bool.true_and, decide_eq_true_eq]
    split_ifs with a b c
    · simp only [reduceCtorEq, false_iff]; omega
    · simp only [reduceCtorEq, false_iff]; omega
    · simp only [reduceCtorEq, false_iff]; omega
    · simp only [true_iff]; omega
  rw [hrej]
  generalize columnCount ref.sampleRate al.data.length = D
  generalize columnCount ref.sampleRate ref.data.length = R at *
  constructor
  · rintro ⟨h1, h2, h3⟩
    refine ⟨h2, h3, ?_⟩
    by_contra hcon
    push Not at hcon
    exact h1 ⟨h2, hcon.1, hcon.2.1, hcon.2.2⟩
  · rintro ⟨h2, h3, h1⟩
    refine ⟨fun ⟨_, a, b, c⟩ => ?_, h2, h3⟩
    rcases h1 with h | h | ⟨j, j1, j2⟩
    · omega
    · omega
    · have := c j j1; omega

/-- C93, wideband, in double precision: exactly when the comparison panics. -/
theorem C93_wideband_panics_rounded (p : Profile) (m : Manager F) {ref deg al : AudioSignal F} {lag : F}
    (hal : globallyAlign p ref deg = .ok (some (al, lag)))
    (hpc : m.patchCreator = .vad 30) (hnb : 0 < m.numBands) (hnb2 : m.numBands ≤ 64) (hmf : m.filterBank.minFreq = 50.0)
    {scale : Bool} (hmap : m.mapper = .speech scale)
    (hsr : ref.sampleRate = deg.sampleRate) (h1k : 1000 ≤ ref.sampleRate) (h1m : ref.sampleRate ≤ 1000000)
    (hr : 2 ≤ ref.data.length) (hd : deg.data ≠ [])
    (hsmall : 2 * (ref.data.length + deg.data.length) + 30 * m.searchWindow < 2147483647)
    (hrs : OrdinarySamples ref) (hds : OrdinarySamples deg) (hl : SoundFrom 0 al)
    (hd1 : SmallDrift ref.sampleRate ref.data.length)
    (hd2 : SmallDrift ref.sampleRate (deg.data.length + ref.data.length / 2))
    {norm : List F} (hn : normalizeSignal ref.data = .ok norm) {kept : ℕ → Prop}
    (hkept : ∀ k, kept k ↔ 14 + 30 * k + 30 ≤ columnCount ref.sampleRate ref.data.length ∧
      ∃ f, 30 * k ≤ f ∧ f < 30 * k + 30 ∧ Active norm (windowSamples ref.sampleRate / 4) f) :
    (∃ q, m.computeResults p ref deg = .error (.panic q)) ↔
      windowSamples ref.sampleRate ≤ ref.data.length ∧ windowSamples ref.sampleRate ≤ al.data.length ∧
      ((∀ k, 1 ≤ k → kept k → columnCount ref.sampleRate al.data.length + 15 < 14 + 30 * k) ∨
        ∃ k, kept k ∧ columnCount ref.sampleRate al.data.length + 30 * m.searchWindow < 14 + 30 * k) := by
  have hs := (C93_wideband_rounded p m hal hpc hnb hnb2 hmf hmap hsr h1k h1m hsmall hrs hds hl hd1 hd2 hn hkept).1
  rw [panics_iff_rounded hal (.inl hpc) hnb hnb2 hmf hsr h1k h1m hr hd (by omega) hrs hds hl, hs, hpc]
  have hrej : rejection (PatchCreator.vad 30 == .image 20) ref.sampleRate ref.data.length al.data.length = none ↔
      windowSamples ref.sampleRate ≤ ref.data.length ∧ windowSamples ref.sampleRate ≤ al.data.length := by
    unfold rejection
    rw [show (PatchCreator.vad 30 == PatchCreator.image 20) = false from rfl]
    simp only [Bool.false_and, Bool.false_eq_true, if_false]
    split_ifs with a b
    · simp only [reduceCtorEq, false_iff]; omega
    · simp only [reduceCtorEq, false_iff]; omega
    · simp only [true_iff]; omega
  rw [hrej]
  generalize columnCount ref.sampleRate al.data.length = D
  constructor
  · rintro ⟨h1, h2, h3⟩
    refine ⟨h2, h3, ?_⟩
    by_contra hcon
    push Not at hcon
    obtain ⟨⟨k, k1, k2, k3⟩, h4⟩ := hcon
    exact h1 ⟨h3, ⟨k, k1, k2, k3⟩, h4⟩
  · rintro ⟨h2, h3, h1⟩
    refine ⟨fun ⟨_, ⟨k, k1, k2, k3⟩, c⟩ => ?_, h2, h3⟩
    rcases h1 with h | ⟨j, j1, j2⟩
    · have := h k k1 k2; omega
    · have := c j j1; omega

/-! ## Examples -/

/-- Ordinary signals align, and a degraded signal with sound in the right place keeps it. -/
theorem aligns_rounded (p : Profile) {ref deg : AudioSignal F} (hr : 2 ≤ ref.data.length) (hhalf : ref.data.length / 2 < deg.data.length)
    (h9 : 9 ≤ ref.data.length) (hbig : 2 * (ref.data.length + deg.data.length) < 2147483647)
    (hrs : OrdinarySamples ref) (hds : OrdinarySamples deg) (hl : SoundFrom (ref.data.length / 2) deg) :
    ∃ al lag, globallyAlign p ref deg = .ok (some (al, lag)) ∧ deg.data.length - ref.data.length / 2 ≤ al.data.length ∧ SoundFrom 0 al := by
  have pw : ∀ s : AudioSignal F, OrdinarySamples s → ∀ a ∈ s.data, Pw 1 a := fun s hs a ha => by
    obtain ⟨x, h1, h2⟩ := hs a ha
    exact ⟨x, h1, by norm_num; exact h2⟩
  obtain ⟨al, t, g1, g2, g3, g4⟩ := globallyAlign_total' p (pw _ hrs) (pw _ hds) (by norm_num) (by intro h; rw [h] at hr; simp at hr)
    (by intro h; rw [h] at hhalf; simp at hhalf) (by omega) (by omega) (by omega)
  refine ⟨al, t, g1, g3, ?_⟩
  obtain ⟨a, ha, hv⟩ := hl
  refine ⟨a, ?_, hv⟩
  rw [List.drop_zero]
  obtain ⟨_, ⟨e, _⟩ | ⟨lag, _, hlag, _, ⟨_, _, e⟩ | ⟨_, e⟩⟩⟩ := C39_only_shifts g1
  · rw [e]; exact List.mem_of_mem_drop ha
  · rw [e]
    have : ref.data.length / 2 = lag.natAbs + (ref.data.length / 2 - lag.natAbs) := by omega
    rw [this, ← List.drop_drop] at ha
    exact List.mem_of_mem_drop ha
  · rw [e]; exact List.mem_append_right _ (List.mem_of_mem_drop ha)

theorem onset_aligns (p : Profile) {n d : Nat} (hn : 9 ≤ n) (hb : 2 * (n + (d + n)) < 2147483647) :
    ∃ al lag, globallyAlign p (onset F 0 n) (onset F d n) = .ok (some (al, lag)) ∧ d + n - n / 2 ≤ al.data.length ∧ SoundFrom 0 al := by
  have := aligns_rounded (F := F) p (ref := onset F 0 n) (deg := onset F d n) (by rw [onset_length]; omega) (by rw [onset_length, onset_length]; omega)
    (by rw [onset_length]; omega) (by rw [onset_length, onset_length]; omega) (onset_ordinary _ _) (onset_ordinary _ _)
    (onset_sound (by rw [onset_length]; omega) (by omega))
  simp only [onset_length, Nat.zero_add] at this
  exact this

theorem svr_answers_b64 {v : List B64} (hv : v.length = 32) :
    ∃ q, (QualityMapper.svr (F := B64) ⟨32, fun _ => some (some 3.0)⟩).predict v = .ok q ∧ val q ≠ .nan := by
  refine ⟨Flt.clamp 3.0 1.0 5.0, ?_, ?_⟩
  · show (svrPredict _ v >>= _) = _
    unfold svrPredict
    rw [if_neg (by show ¬ 32 < _; omega)]
    rfl
  · obtain ⟨y, hy, _⟩ := clamp_num (x := (3.0 : B64)) (by
      have := val_litnat (F := B64) (m := 30) (e := 1) (k := 3) (by norm_num) (by norm_num)
      rw [this]; exact fun h => by cases h)
    rw [hy]; exact fun h => by cases h

/-- The shifted degraded signal has at least this many columns. -/
theorem columns_of_length {a b : Nat} (h : a ≤ b) : columnCount 16000 a ≤ columnCount 16000 b := by
  simp only [columnCount_eq]
  exact numColumns_mono h

/-- `C93_fullband_rounded`: 2.5 s at full scale against the same delayed by 1000 samples, with a search window of three patches. -/
example (p : Profile) : ∃ x, (⟨32, 3, .image 20, .svr ⟨32, fun _ => some (some 3.0)⟩, FilterBank.new 32 50.0⟩ : Manager B64).computeResults p
    (onset B64 0 40000) (onset B64 1000 40000) = .ok x := by
  obtain ⟨al, lag, hal, hlen, hl⟩ := onset_aligns (F := B64) p (n := 40000) (d := 1000) (by norm_num) (by norm_num)
  have hc := columns_of_length hlen
  refine (C93_fullband_rounded p _ hal rfl (by norm_num) (by norm_num) rfl (fun v hv _ => svr_answers_b64 hv) rfl (by norm_num [onset]) (by norm_num [onset]) ?_
    (onset_ordinary _ _) (onset_ordinary _ _) hl ?_ ?_).1.mpr ⟨?_, ?_, ?_, ?_⟩
  all_goals simp only [onset_length, show ∀ z n, (onset B64 z n).sampleRate = 16000 from fun _ _ => rfl]
  all_goals try unfold SmallDrift
  all_goals simp only [show columnCount 16000 (1000 + 40000 - 40000 / 2) = 62 from rfl, show columnCount 16000 (0 + 40000) = 122 from rfl,
    show windowSamples 16000 = 1280 from rfl] at *
  all_goals first | omega | (intro j hj; omega) | norm_num

/-- `C93_fullband_panics_rounded`: 0.75 s against themselves, whatever the search window. -/
example (p : Profile) : ∃ q, (⟨32, 60, .image 20, .svr ⟨32, fun _ => some (some 3.0)⟩, FilterBank.new 32 50.0⟩ : Manager B64).computeResults p
    (onset B64 0 12000) (onset B64 0 12000) = .error (.panic q) := by
  obtain ⟨al, lag, hal, hlen, hl⟩ := onset_aligns (F := B64) p (n := 12000) (d := 0) (by norm_num) (by norm_num)
  refine (C93_fullband_panics_rounded p _ hal rfl (by norm_num) (by norm_num) rfl (fun v hv _ => svr_answers_b64 hv) rfl (by norm_num [onset]) (by norm_num [onset])
    ?_ ?_ ?_ (onset_ordinary _ _) (onset_ordinary _ _) hl ?_ ?_).mpr ⟨?_, ?_, ?_⟩
  case refine_2 => intro h; have := onset_length (F := B64) 0 12000; rw [h] at this; simp at this
  all_goals simp only [onset_length, show ∀ z n, (onset B64 z n).sampleRate = 16000 from fun _ _ => rfl]
  all_goals try unfold SmallDrift
  all_goals try simp only [show columnCount 16000 (0 + 12000) = 34 from rfl, show windowSamples 16000 = 1280 from rfl] at *
  all_goals try omega
  all_goals norm_num

/-- `C93_wideband_rounded`: the first example, wideband. -/
example (p : Profile) (u : Bool) : ∃ x, (⟨21, 3, .vad 30, .speech u, FilterBank.new 21 50.0⟩ : Manager B64).computeResults p
    (onset B64 0 40000) (onset B64 1000 40000) = .ok x := by
  obtain ⟨al, lag, hal, hlen, hl⟩ := onset_aligns (F := B64) p (n := 40000) (d := 1000) (by norm_num) (by norm_num)
  have hc := columns_of_length hlen
  obtain ⟨norm, h1, h2⟩ := steady_active (F := B64) (n := 40000) (f := 30) val_1 (by norm_num)
  rw [show List.replicate 40000 (1.0 : B64) = (onset B64 0 40000).data by unfold onset; rw [List.replicate_zero, List.nil_append]] at h1
  refine (C93_wideband_rounded p _ hal rfl (by norm_num) (by norm_num) rfl rfl rfl (by norm_num [onset]) (by norm_num [onset]) ?_
    (onset_ordinary _ _) (onset_ordinary _ _) hl ?_ ?_ h1 (fun k => Iff.rfl)).1.mpr ⟨?_, ⟨1, le_rfl, ⟨?_, 30, by norm_num, by norm_num, h2⟩, ?_⟩, fun k hk => ?_⟩
  case refine_7 =>
    have := hk.1
    simp only [onset_length, show ∀ z n, (onset B64 z n).sampleRate = 16000 from fun _ _ => rfl, show columnCount 16000 (0 + 40000) = 122 from rfl,
      show columnCount 16000 (1000 + 40000 - 40000 / 2) = 62 from rfl] at *
    omega
  all_goals simp only [onset_length, show ∀ z n, (onset B64 z n).sampleRate = 16000 from fun _ _ => rfl]
  all_goals try unfold SmallDrift
  all_goals simp only [show columnCount 16000 (1000 + 40000 - 40000 / 2) = 62 from rfl, show columnCount 16000 (0 + 40000) = 122 from rfl,
    show windowSamples 16000 = 1280 from rfl] at *
  all_goals try omega
  all_goals norm_num

/-- `C93_wideband_panics_rounded`: 1.25 s against themselves: no second patch fits. -/
example (p : Profile) (u : Bool) : ∃ q, (⟨21, 60, .vad 30, .speech u, FilterBank.new 21 50.0⟩ : Manager B64).computeResults p
    (onset B64 0 20000) (onset B64 0 20000) = .error (.panic q) := by
  obtain ⟨al, lag, hal, hlen, hl⟩ := onset_aligns (F := B64) p (n := 20000) (d := 0) (by norm_num) (by norm_num)
  obtain ⟨norm, h1, h2⟩ := steady_active (F := B64) (n := 20000) (f := 30) val_1 (by norm_num)
  rw [show List.replicate 20000 (1.0 : B64) = (onset B64 0 20000).data by unfold onset; rw [List.replicate_zero, List.nil_append]] at h1
  refine (C93_wideband_panics_rounded p _ hal rfl (by norm_num) (by norm_num) rfl rfl rfl (by norm_num [onset]) (by norm_num [onset]) ?_ ?_ ?_
    (onset_ordinary _ _) (onset_ordinary _ _) hl ?_ ?_ h1 (fun k => Iff.rfl)).mpr ⟨?_, ?_, .inl fun k hk1 hk => ?_⟩
  case refine_2 => intro h; have := onset_length (F := B64) 0 20000; rw [h] at this; simp at this
  case refine_8 =>
    have := hk.1
    simp only [onset_length, show ∀ z n, (onset B64 z n).sampleRate = 16000 from fun _ _ => rfl, show columnCount 16000 (0 + 20000) = 59 from rfl] at *
    omega
  all_goals simp only [onset_length, show ∀ z n, (onset B64 z n).sampleRate = 16000 from fun _ _ => rfl]
  all_goals try unfold SmallDrift
  all_goals try simp only [show columnCount 16000 (0 + 20000) = 59 from rfl, show windowSamples 16000 = 1280 from rfl] at *
  all_goals try omega
  all_goals norm_num

/-- `C92_exactly_rounded`: 5000 samples against themselves, fullband: 12 columns are too few, although the error
asks for 10. -/
example (p : Profile) : (⟨32, 60, .image 20, .svr ⟨32, fun _ => some (some 3.0)⟩, FilterBank.new 32 50.0⟩ : Manager B64).computeResults p
    (onset B64 0 5000) (onset B64 0 5000) = .error (.err (.referenceSpectrogramTooSmall 12 10)) := by
  obtain ⟨al, lag, hal, hlen, hl⟩ := onset_aligns (F := B64) p (n := 5000) (d := 0) (by norm_num) (by norm_num)
  refine (C92_exactly_rounded hal (.inr rfl) (by norm_num) (by norm_num) rfl rfl (by norm_num [onset]) (by norm_num [onset]) (by rw [onset_length]; norm_num) ?_
    (by rw [onset_length]; norm_num) (onset_ordinary _ _) (onset_ordinary _ _) hl).mpr ?_
  · intro h; have := onset_length (F := B64) 0 5000; rw [h] at this; simp at this
  · rw [onset_length]
    unfold rejection
    rw [if_neg (by show ¬ 0 + 5000 < 1280; omega), if_neg (by show ¬ al.data.length < 1280; omega)]
    rfl

end Visqol
