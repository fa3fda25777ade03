import Verif.Props.ErrorsExactly
import Verif.Props.Delay
import Verif.Props.Polarity

/-! # Exactly when a comparison succeeds (C93) -/

set_option linter.unusedSectionVars false

namespace Visqol

theorem indices_short_image {F : Type} [Flt F] (p : Profile) {n : Nat} (h : n < 30) (ref : AudioSignal F) (w : AnalysisWindow F) (ix : List Nat) :
    (PatchCreator.image 20).indices p n ref w ≠ .ok ix := by
  intro hix
  change imagePatchIndices 20 n = .ok ix at hix
  unfold imagePatchIndices at hix
  rw [if_pos (by omega)] at hix
  cases hix

theorem reach_bounds {sw P R : Nat} (h1 : 20 ≤ P) (h2 : P ≤ 30) (h : 30 * sw + R ≤ 2147483647) :
    wrapI32 sw = sw ∧ P ≤ 2147483647 ∧ ∀ j, j + P ≤ R → (j : Int) + (sw : Int) * P ≤ 2147483647 := by
  refine ⟨wrapI32_of_mem (by omega) (by omega), by omega, fun j hj => ?_⟩
  have hmul : sw * P ≤ sw * 30 := Nat.mul_le_mul_left _ h2
  have : j + sw * P ≤ 2147483647 := by omega
  exact_mod_cast this

/-- Success of a comparison, given the alignment, in terms of the patches of the reference. -/
theorem succeeds_iff (p : Profile) (m : Manager ℝ) {ref deg al : AudioSignal ℝ} {lag : ℝ}
    (hal : globallyAlign p ref deg = .ok (some (al, lag)))
    (hpc : m.patchCreator = .vad 30 ∨ m.patchCreator = .image 20) (hnb : 0 < m.numBands)
    (hmap : ∀ v : List ℝ, v.length = m.numBands → ∃ q, m.mapper.predict v = .ok q)
    (hsr : ref.sampleRate = deg.sampleRate) (h50 : 50 ≤ ref.sampleRate) (hu32 : ref.sampleRate < 4294967296)
    (hsmall : 2 * (ref.data.length + deg.data.length) + 30 * m.searchWindow < 2147483647)
    (hd1 : SmallDrift ref.sampleRate ref.data.length)
    (hd2 : SmallDrift ref.sampleRate (deg.data.length + ref.data.length / 2)) :
    (∃ x, m.computeResults p ref deg = .ok x) ↔
      windowSamples ref.sampleRate ≤ ref.data.length ∧ windowSamples ref.sampleRate ≤ al.data.length ∧
      ∃ ix, m.patchCreator.indices p (columnCount ref.sampleRate ref.data.length) ref (AnalysisWindow.mk' ref.sampleRate 0.25 0.08) = .ok ix ∧
        (∃ i ∈ ix, m.patchCreator.patchSize / 2 ≤ i ∧ i ≤ columnCount ref.sampleRate al.data.length + m.patchCreator.patchSize / 2) ∧
        ∀ i ∈ ix, i ≤ columnCount ref.sampleRate al.data.length + m.searchWindow * m.patchCreator.patchSize := by
  obtain ⟨w1, w2, w3⟩ := window_facts h50 hu32
  have hP : 20 ≤ m.patchCreator.patchSize ∧ m.patchCreator.patchSize ≤ 30 := by
    rcases hpc with h | h <;> rw [h] <;> decide
  have hlal := globallyAlign_length hal
  have hals := (C39_only_shifts hal).1
  constructor
  · rintro ⟨⟨m', res⟩, h⟩
    obtain ⟨al', lag', hal', ⟨st⟩⟩ := computeResults_stages h
    rw [hal] at hal'
    cases hal'
    obtain ⟨s1, s2, s3, s4, s5, s6⟩ := st.shapes
    have hsr' := st.hsr
    have hsd := st.hsd
    have hix := st.ixs
    obtain ⟨c1, c2⟩ := createPatches_ok st.created s1
    have hpp : ∀ q ∈ st.patches, q.ncols = m.patchCreator.patchSize := fun q hq => (c2 q hq).2.2
    rw [w1] at hsr' hsd
    rw [w1, w2, ← columnCount_eq] at s5 s6
    rw [s5] at hix
    have b1 := columnCount_le (len := ref.data.length) h50
    have b2 := columnCount_le (len := al.data.length) h50
    refine ⟨hsr', hsd, st.ix, hix, ?_, ?_⟩
    · obtain ⟨_, _, ⟨i, h3, h4, h5⟩, _⟩ := calcMaxLoop_spec (lt_usizeMod (by omega)) (find_calcMax st.found c1 hpp) (le_refl _)
      rw [s6] at h5
      exact ⟨i, List.mem_of_getElem? h3, h4, h5⟩
    · intro i hi
      obtain ⟨t1, t2, t3⟩ := reach_bounds hP.1 hP.2 (show 30 * m.searchWindow + columnCount ref.sampleRate ref.data.length ≤ 2147483647 by
        clear hd1 hd2; omega)
      refine Nat.le_of_not_lt fun hfar => ?_
      obtain ⟨q, hq⟩ := C61_out_of_reach (p := p) (deg := st.degM)
        (fd := Flt.ofNat (AnalysisWindow.mk' (F := ℝ) ref.sampleRate 0.25 0.08).size *
          (AnalysisWindow.mk' (F := ℝ) ref.sampleRate 0.25 0.08).overlap / Flt.ofNat ref.sampleRate)
        (radius := wrapI32 m.searchWindow) c1 hpp t2 (by rw [t1]; exact Int.natCast_nonneg _)
        (by
          intro j hj
          obtain ⟨k, hk⟩ := List.getElem?_of_mem hj
          obtain ⟨_, g1⟩ := createPatches_get st.created hk
          rw [t1]
          exact t3 j (by rw [s5] at g1; exact g1)) hi
        (by rw [t1, s6]; exact_mod_cast hfar)
      have := st.found
      rw [hq] at this
      cases this
  · rintro ⟨h1, h2, ix, hix, huse, hreach⟩
    unfold SmallDrift at hd1 hd2
    have mono2 := numColumns_mono (W := windowSamples ref.sampleRate) (H := windowSamples ref.sampleRate / 4) hlal
    simp only [columnCount_eq] at *
    obtain ⟨⟨fb, x⟩, hx⟩ := calculateSimilarity_total (p := p) (sw := m.searchWindow) (nb := m.numBands) (pc := m.patchCreator)
      (mapper := m.mapper) (ix := ix) (fb := m.filterBank) (ref := ref) (deg := al)
      (hsr.trans hals.symm)
      ⟨hpc, hnb, by omega, by omega, by omega, by omega, by omega, by rw [w1, w2]; exact hix, by rw [w1, w2]; exact huse,
        by rw [w1, w2]; exact hreach, by rw [w1, w2]; exact hd1, by rw [w1, w2]; exact (Nat.mul_le_mul_right _ mono2).trans hd2, hmap⟩
    refine ⟨({ m with filterBank := fb }, x), ?_⟩
    unfold Manager.computeResults
    rw [bind_of_ok hal]
    dsimp only
    rw [bind_of_ok hx]

/-- C93, fullband: `z` is the number of samples by which alignment delays the degraded signal.  The comparison succeeds exactly when the
shifted degraded signal has a window, the reference has a second patch (51 columns) that starts at most half a patch after the end of
the degraded spectrogram, and every patch of the reference starts within reach of the degraded spectrogram. -/
theorem C93_fullband (p : Profile) (m : Manager ℝ) {ref deg : AudioSignal ℝ} {pad : ℕ → ℕ} {z : ℤ}
    (hpc : m.patchCreator = .image 20) (hnb : 0 < m.numBands)
    (hmap : ∀ v : List ℝ, v.length = m.numBands → ∃ q, m.mapper.predict v = .ok q)
    (hsr : ref.sampleRate = deg.sampleRate) (h50 : 50 ≤ ref.sampleRate) (hu32 : ref.sampleRate < 4294967296)
    (hr : 2 ≤ ref.data.length) (hd : 2 ≤ deg.data.length) (h9 : 9 ≤ max ref.data.length deg.data.length)
    (hsmall : 2 * (ref.data.length + deg.data.length) + 30 * m.searchWindow < 2147483647)
    (hd1 : SmallDrift ref.sampleRate ref.data.length)
    (hd2 : SmallDrift ref.sampleRate (deg.data.length + ref.data.length / 2))
    (hpad : ∀ n, 1 ≤ n → n ≤ 2 ^ 63 → nextPowTwo p n = .ok (pad n)) (hz : Spec.IsDelay pad ref.data deg.data z) :
    (∃ x, m.computeResults p ref deg = .ok x) ↔
      windowSamples ref.sampleRate ≤ (Spec.shift z deg.data).length ∧ 51 ≤ columnCount ref.sampleRate ref.data.length ∧
      19 ≤ columnCount ref.sampleRate (Spec.shift z deg.data).length ∧
      ∀ j, 9 + 20 * j + 21 < columnCount ref.sampleRate ref.data.length →
        9 + 20 * j ≤ columnCount ref.sampleRate (Spec.shift z deg.data).length + 20 * m.searchWindow := by
  obtain ⟨z', hz', hal⟩ := C70_delay p hpad hr hd h9 (by omega)
  obtain rfl := C70_unique hz hz'
  rw [succeeds_iff p m hal (.inr hpc) hnb hmap hsr h50 hu32 hsmall hd1 hd2, hpc]
  show _ ∧ _ ≤ (Spec.shift z deg.data).length ∧ (∃ ix, _ ∧ (∃ i ∈ ix, 20 / 2 ≤ i ∧ i ≤ columnCount ref.sampleRate (Spec.shift z deg.data).length + 20 / 2) ∧
    ∀ i ∈ ix, i ≤ columnCount ref.sampleRate (Spec.shift z deg.data).length + m.searchWindow * 20) ↔ _
  generalize columnCount ref.sampleRate (Spec.shift z deg.data).length = D
  have hRlen : windowSamples ref.sampleRate ≤ ref.data.length ∨ columnCount ref.sampleRate ref.data.length = 1 := by
    unfold columnCount
    by_cases h : windowSamples ref.sampleRate ≤ ref.data.length
    · exact .inl h
    · right
      rw [Nat.sub_eq_zero_of_le (by omega), Nat.zero_div]
  generalize columnCount ref.sampleRate ref.data.length = R at *
  constructor
  · rintro ⟨_, h2, ix, hix, ⟨i, hi, u1, u2⟩, hreach⟩
    by_cases h30 : R < 30
    · exact absurd hix (indices_short_image p h30 _ _ _)
    obtain ⟨k, _, t1, t2, _⟩ := C25_tiling p (m := (⟨R, []⟩ : Mat ℝ)) (by show 30 ≤ R; omega) ref (AnalysisWindow.mk' ref.sampleRate 0.25 0.08)
    change (PatchCreator.image 20).indices p R ref _ = _ at t1
    rw [t1] at hix
    cases hix
    obtain ⟨j, hj, rfl⟩ := List.mem_map.mp hi
    have hj' : 9 + 20 * j < max (R - 21) 10 := (t2 j).mp (List.mem_range.mp hj)
    refine ⟨h2, by omega, by omega, fun j hj => ?_⟩
    have := hreach (9 + 20 * j) (List.mem_map.mpr ⟨j, List.mem_range.mpr ((t2 j).mpr (by show _ < max (R - 21) 10; omega)), rfl⟩)
    omega
  · rintro ⟨h2, h51, h19, hreach⟩
    obtain ⟨k, _, t1, t2, _⟩ := C25_tiling p (m := (⟨R, []⟩ : Mat ℝ)) (by show 30 ≤ R; omega) ref (AnalysisWindow.mk' ref.sampleRate 0.25 0.08)
    refine ⟨by omega, h2, _, t1, ⟨29, List.mem_map.mpr ⟨1, List.mem_range.mpr ((t2 1).mpr ?_), rfl⟩, by omega, by omega⟩, ?_⟩
    · show 9 + 20 * 1 < max (R - 21) 10
      omega
    · intro i hi
      obtain ⟨j, hj, rfl⟩ := List.mem_map.mp hi
      have hj' : 9 + 20 * j < max (R - 21) 10 := (t2 j).mp (List.mem_range.mp hj)
      have := hreach j (by omega)
      omega

/-- Patch `k` of a wideband reference is kept: it fits, and one of its frames is judged active. -/
def Kept (sampleRate : Nat) (data : List ℝ) (M : ℝ) (k : Nat) : Prop :=
  14 + 30 * k + 30 ≤ columnCount sampleRate data.length ∧ ∃ f, 30 * k ≤ f ∧ f < 30 * k + 30 ∧
    (f < 2 ∨ ∃ g, f ≤ g + 2 ∧ g ≤ f ∧ LoudSamples data M (windowSamples sampleRate / 4) g)

/-- C93, wideband: `M` is the largest sample of the reference.  The comparison succeeds exactly when the shifted degraded signal has a
window, the reference keeps a patch other than the first that starts at most half a patch after the end of the degraded spectrogram, and
every kept patch starts within reach of the degraded spectrogram. -/
theorem C93_wideband (p : Profile) (m : Manager ℝ) {ref deg : AudioSignal ℝ} {pad : ℕ → ℕ} {z : ℤ} {M : ℝ}
    (hpc : m.patchCreator = .vad 30) (hnb : 0 < m.numBands)
    (hmap : ∀ v : List ℝ, v.length = m.numBands → ∃ q, m.mapper.predict v = .ok q)
    (hsr : ref.sampleRate = deg.sampleRate) (h50 : 50 ≤ ref.sampleRate) (hu32 : ref.sampleRate < 4294967296)
    (hr : 2 ≤ ref.data.length) (hd : 2 ≤ deg.data.length) (h9 : 9 ≤ max ref.data.length deg.data.length)
    (hsmall : 2 * (ref.data.length + deg.data.length) + 30 * m.searchWindow < 2147483647)
    (hd1 : SmallDrift ref.sampleRate ref.data.length)
    (hd2 : SmallDrift ref.sampleRate (deg.data.length + ref.data.length / 2))
    (hpad : ∀ n, 1 ≤ n → n ≤ 2 ^ 63 → nextPowTwo p n = .ok (pad n)) (hz : Spec.IsDelay pad ref.data deg.data z)
    (hM : M ∈ ref.data) (hmax : ∀ x ∈ ref.data, x ≤ M) :
    (∃ x, m.computeResults p ref deg = .ok x) ↔
      windowSamples ref.sampleRate ≤ (Spec.shift z deg.data).length ∧
      (∃ k, 1 ≤ k ∧ Kept ref.sampleRate ref.data M k ∧
        14 + 30 * k ≤ columnCount ref.sampleRate (Spec.shift z deg.data).length + 15) ∧
      ∀ k, Kept ref.sampleRate ref.data M k →
        14 + 30 * k ≤ columnCount ref.sampleRate (Spec.shift z deg.data).length + 30 * m.searchWindow := by
  obtain ⟨z', hz', hal⟩ := C70_delay p hpad hr hd h9 (by omega)
  obtain rfl := C70_unique hz hz'
  obtain ⟨w1, w2, w3⟩ := window_facts h50 hu32
  rw [succeeds_iff p m hal (.inl hpc) hnb hmap hsr h50 hu32 hsmall hd1 hd2]
  by_cases h44 : columnCount ref.sampleRate ref.data.length < 44
  · constructor
    · intro h
      obtain ⟨x, hx⟩ := (succeeds_iff p m hal (.inl hpc) hnb hmap hsr h50 hu32 hsmall hd1 hd2).mpr h
      exact absurd hx ((C27_short_wideband hpc (by omega) (by rw [w1, w2, ← columnCount_eq]; exact h44)).1 x)
    · rintro ⟨_, ⟨k, h1, ⟨h2, _⟩, _⟩, _⟩
      omega
  have hRlen : windowSamples ref.sampleRate ≤ ref.data.length := by
    by_contra h
    apply h44
    unfold columnCount
    rw [Nat.sub_eq_zero_of_le (by omega), Nat.zero_div]; omega
  obtain ⟨ix, t1, t2⟩ := C30_in_samples p (w := AnalysisWindow.mk' ref.sampleRate 0.25 0.08) (by omega) (by omega) (by omega)
    (by rw [w1, w2, ← columnCount_eq]; omega) hM hmax
  obtain ⟨ix', t3, t4, _⟩ := (C26_wideband p (m := (⟨columnCount ref.sampleRate ref.data.length, []⟩ : Mat ℝ))
    (w := AnalysisWindow.mk' ref.sampleRate 0.25 0.08) (ref := ref) (by omega) (by omega) (by omega)
    (by rw [w1, w2, ← columnCount_eq]) (by show 44 ≤ columnCount _ _; omega)).1 _ (normalize_real hM hmax)
  rw [w1, w2, ← columnCount_eq] at t1 t2
  dsimp only at t3
  rw [t1] at t3
  cases t3
  change ∀ k, 14 + 30 * k ∈ ix ↔ Kept ref.sampleRate ref.data M k at t2
  have hform : ∀ i ∈ ix, ∃ k, i = 14 + 30 * k := fun i hi => by
    obtain ⟨k, _, hk⟩ := List.mem_map.mp (t4.subset hi)
    exact ⟨k, hk.symm⟩
  rw [hpc]
  show _ ∧ _ ≤ (Spec.shift z deg.data).length ∧ (∃ ix, _ ∧ (∃ i ∈ ix, 30 / 2 ≤ i ∧ i ≤ columnCount ref.sampleRate (Spec.shift z deg.data).length + 30 / 2) ∧
    ∀ i ∈ ix, i ≤ columnCount ref.sampleRate (Spec.shift z deg.data).length + m.searchWindow * 30) ↔ _
  generalize columnCount ref.sampleRate (Spec.shift z deg.data).length = D
  constructor
  · rintro ⟨_, h2, ix', hix, ⟨i, hi, u1, u2⟩, hreach⟩
    rw [t1] at hix
    cases hix
    obtain ⟨k, rfl⟩ := hform i hi
    refine ⟨h2, ⟨k, by omega, (t2 k).mp hi, u2⟩, fun k hk => ?_⟩
    have := hreach _ ((t2 k).mpr hk)
    omega
  · rintro ⟨h2, ⟨k, k1, k2, k3⟩, hreach⟩
    refine ⟨hRlen, h2, ix, t1, ⟨_, (t2 k).mpr k2, by omega, by omega⟩, fun i hi => ?_⟩
    obtain ⟨j, rfl⟩ := hform i hi
    have := hreach j ((t2 j).mp hi)
    omega

/-- A comparison of two aligned signals that neither succeeds nor is refused panics, and the three outcomes exclude each other. -/
theorem panics_iff {p : Profile} {m : Manager ℝ} {ref deg al : AudioSignal ℝ} {lag : ℝ}
    (hal : globallyAlign p ref deg = .ok (some (al, lag)))
    (hpc : m.patchCreator = .vad 30 ∨ m.patchCreator = .image 20) (hnb : 0 < m.numBands)
    (h50 : 50 ≤ ref.sampleRate) (hu32 : ref.sampleRate < 4294967296) (hsr : ref.sampleRate = deg.sampleRate)
    (hlen : ref.data.length + deg.data.length < 2147483648) (hr : ref.data ≠ []) (hd : deg.data ≠ []) :
    (∃ q, m.computeResults p ref deg = .error (.panic q)) ↔
      (¬ ∃ x, m.computeResults p ref deg = .ok x) ∧
        rejection (m.patchCreator == .image 20) ref.sampleRate ref.data.length al.data.length = none := by
  have hex := fun e => C92_exactly (p := p) (m := m) (e := e) hpc hnb h50 hu32 hsr hlen
  constructor
  · rintro ⟨q, hq⟩
    refine ⟨fun ⟨x, hx⟩ => (by rw [hq] at hx; cases hx), ?_⟩
    cases hj : rejection (m.patchCreator == .image 20) ref.sampleRate ref.data.length al.data.length with
    | none => rfl
    | some e =>
      have := (hex e).mpr (.inr ⟨al, lag, hal, hj⟩)
      rw [hq] at this
      cases this
  · rintro ⟨h1, h2⟩
    rcases C92_or_panic p m ref deg with h | ⟨e, h⟩ | h
    · exact absurd h h1
    · rcases (hex e).mp h with ⟨h | h, _⟩ | ⟨al', lag', hal', h⟩
      · exact absurd h hr
      · exact absurd h hd
      · rw [hal] at hal'
        cases hal'
        rw [h2] at h; cases h
    · exact h

/-- C93, fullband: exactly when the comparison panics. -/
theorem C93_fullband_panics (p : Profile) (m : Manager ℝ) {ref deg : AudioSignal ℝ} {pad : ℕ → ℕ} {z : ℤ}
    (hpc : m.patchCreator = .image 20) (hnb : 0 < m.numBands)
    (hmap : ∀ v : List ℝ, v.length = m.numBands → ∃ q, m.mapper.predict v = .ok q)
    (hsr : ref.sampleRate = deg.sampleRate) (h50 : 50 ≤ ref.sampleRate) (hu32 : ref.sampleRate < 4294967296)
    (hr : 2 ≤ ref.data.length) (hd : 2 ≤ deg.data.length) (h9 : 9 ≤ max ref.data.length deg.data.length)
    (hsmall : 2 * (ref.data.length + deg.data.length) + 30 * m.searchWindow < 2147483647)
    (hd1 : SmallDrift ref.sampleRate ref.data.length)
    (hd2 : SmallDrift ref.sampleRate (deg.data.length + ref.data.length / 2))
    (hpad : ∀ n, 1 ≤ n → n ≤ 2 ^ 63 → nextPowTwo p n = .ok (pad n)) (hz : Spec.IsDelay pad ref.data deg.data z) :
    (∃ q, m.computeResults p ref deg = .error (.panic q)) ↔
      windowSamples ref.sampleRate ≤ (Spec.shift z deg.data).length ∧ 30 ≤ columnCount ref.sampleRate ref.data.length ∧
      (columnCount ref.sampleRate ref.data.length < 51 ∨ columnCount ref.sampleRate (Spec.shift z deg.data).length < 19 ∨
        ∃ j, 9 + 20 * j + 21 < columnCount ref.sampleRate ref.data.length ∧
          columnCount ref.sampleRate (Spec.shift z deg.data).length + 20 * m.searchWindow < 9 + 20 * j) := by
  have hs := C93_fullband p m hpc hnb hmap hsr h50 hu32 hr hd h9 hsmall hd1 hd2 hpad hz
  obtain ⟨z', hz', hal⟩ := C70_delay p hpad hr hd h9 (by omega)
  obtain rfl := C70_unique hz hz'
  have hne : ∀ l : List ℝ, 2 ≤ l.length → l ≠ [] := fun l h h0 => by rw [h0] at h; simp at h
  rw [panics_iff hal (.inr hpc) hnb h50 hu32 hsr (by omega) (hne _ hr) (hne _ hd), hs, hpc]
  have hRlen : windowSamples ref.sampleRate ≤ ref.data.length ∨ columnCount ref.sampleRate ref.data.length = 1 := by
    unfold columnCount
    by_cases h : windowSamples ref.sampleRate ≤ ref.data.length
    · exact .inl h
    · right
      rw [Nat.sub_eq_zero_of_le (by omega), Nat.zero_div]
  have hrej : rejection (PatchCreator.image 20 == .image 20) ref.sampleRate ref.data.length (Spec.shift z deg.data).length = none ↔
      windowSamples ref.sampleRate ≤ (Spec.shift z deg.data).length ∧ 30 ≤ columnCount ref.sampleRate ref.data.length := by
    unfold rejection
    rw [show (PatchCreator.image 20 == PatchCreator.image 20) = true from rfl]
    simp only [Bool.true_and, decide_eq_true_eq]
    split_ifs with a b c
    · simp only [reduceCtorEq, false_iff]; omega
    · simp only [reduceCtorEq, false_iff]; omega
    · simp only [reduceCtorEq, false_iff]; omega
    · simp only [true_iff]; omega
  show _ ∧ rejection (PatchCreator.image 20 == .image 20) ref.sampleRate ref.data.length (Spec.shift z deg.data).length = none ↔ _
  rw [hrej]
  generalize columnCount ref.sampleRate (Spec.shift z deg.data).length = D
  generalize columnCount ref.sampleRate ref.data.length = R at *
  constructor
  · rintro ⟨h1, h2, h3⟩
    refine ⟨h2, h3, ?_⟩
    by_contra hcon
    push Not at hcon
    exact h1 ⟨h2, hcon.1, hcon.2.1, hcon.2.2⟩
  · rintro ⟨h2, h3, h1⟩
    refine ⟨fun ⟨_, a, b, c⟩ => ?_, h2, h3⟩
    rcases h1 with h | h | ⟨j, j1, j2⟩
    · omega
    · omega
    · have := c j j1; omega

/-- C93, wideband: exactly when the comparison panics. -/
theorem C93_wideband_panics (p : Profile) (m : Manager ℝ) {ref deg : AudioSignal ℝ} {pad : ℕ → ℕ} {z : ℤ} {M : ℝ}
    (hpc : m.patchCreator = .vad 30) (hnb : 0 < m.numBands)
    (hmap : ∀ v : List ℝ, v.length = m.numBands → ∃ q, m.mapper.predict v = .ok q)
    (hsr : ref.sampleRate = deg.sampleRate) (h50 : 50 ≤ ref.sampleRate) (hu32 : ref.sampleRate < 4294967296)
    (hr : 2 ≤ ref.data.length) (hd : 2 ≤ deg.data.length) (h9 : 9 ≤ max ref.data.length deg.data.length)
    (hsmall : 2 * (ref.data.length + deg.data.length) + 30 * m.searchWindow < 2147483647)
    (hd1 : SmallDrift ref.sampleRate ref.data.length)
    (hd2 : SmallDrift ref.sampleRate (deg.data.length + ref.data.length / 2))
    (hpad : ∀ n, 1 ≤ n → n ≤ 2 ^ 63 → nextPowTwo p n = .ok (pad n)) (hz : Spec.IsDelay pad ref.data deg.data z)
    (hM : M ∈ ref.data) (hmax : ∀ x ∈ ref.data, x ≤ M) :
    (∃ q, m.computeResults p ref deg = .error (.panic q)) ↔
      windowSamples ref.sampleRate ≤ ref.data.length ∧ windowSamples ref.sampleRate ≤ (Spec.shift z deg.data).length ∧
      ((∀ k, 1 ≤ k → Kept ref.sampleRate ref.data M k →
          columnCount ref.sampleRate (Spec.shift z deg.data).length + 15 < 14 + 30 * k) ∨
        ∃ k, Kept ref.sampleRate ref.data M k ∧
          columnCount ref.sampleRate (Spec.shift z deg.data).length + 30 * m.searchWindow < 14 + 30 * k) := by
  have hs := C93_wideband p m hpc hnb hmap hsr h50 hu32 hr hd h9 hsmall hd1 hd2 hpad hz hM hmax
  obtain ⟨z', hz', hal⟩ := C70_delay p hpad hr hd h9 (by omega)
  obtain rfl := C70_unique hz hz'
  have hne : ∀ l : List ℝ, 2 ≤ l.length → l ≠ [] := fun l h h0 => by rw [h0] at h; simp at h
  rw [panics_iff hal (.inl hpc) hnb h50 hu32 hsr (by omega) (hne _ hr) (hne _ hd), hs, hpc]
  have hrej : rejection (PatchCreator.vad 30 == .image 20) ref.sampleRate ref.data.length (Spec.shift z deg.data).length = none ↔
      windowSamples ref.sampleRate ≤ ref.data.length ∧ windowSamples ref.sampleRate ≤ (Spec.shift z deg.data).length := by
    unfold rejection
    rw [show (PatchCreator.vad 30 == PatchCreator.image 20) = false from rfl]
    simp only [Bool.false_and, Bool.false_eq_true, if_false]
    split_ifs with a b
    · simp only [reduceCtorEq, false_iff]; omega
    · simp only [reduceCtorEq, false_iff]; omega
    · simp only [true_iff]; omega
  show _ ∧ rejection (PatchCreator.vad 30 == .image 20) ref.sampleRate ref.data.length (Spec.shift z deg.data).length = none ↔ _
  rw [hrej]
  generalize columnCount ref.sampleRate (Spec.shift z deg.data).length = D
  constructor
  · rintro ⟨h1, h2, h3⟩
    refine ⟨h2, h3, ?_⟩
    by_contra hcon
    push Not at hcon
    obtain ⟨⟨k, k1, k2, k3⟩, hcon⟩ := hcon
    exact h1 ⟨h3, ⟨k, k1, k2, k3⟩, hcon⟩
  · rintro ⟨h2, h3, h1⟩
    refine ⟨fun ⟨_, ⟨k, k1, k2, k3⟩, c⟩ => ?_, h2, h3⟩
    rcases h1 with h | ⟨j, j1, j2⟩
    · have := h k k1 k2; omega
    · have := c j j1; omega

/-! ## Examples -/

theorem svr_answers {v : List ℝ} {c : ℝ} (hv : v.length = 32) : ∃ q, (QualityMapper.svr ⟨32, fun _ => some (some c)⟩).predict v = .ok q := by
  refine ⟨Flt.clamp c 1.0 5.0, ?_⟩
  unfold QualityMapper.predict svrPredict
  dsimp only
  rw [if_neg (by omega)]
  rfl

theorem shift_zero (l : List ℝ) : (Spec.shift 0 l).length = l.length := by simp [Spec.shift]

/-- `C93_fullband`: two seconds of a steady signal against one second of it, with a search window of two patches. -/
example (p : Profile) (c : ℝ) (hc : 0 ≤ c) : ∃ x, ((⟨32, 2, .image 20, .svr ⟨32, fun _ => some (some 3.0)⟩, FilterBank.new 32 50.0⟩ : Manager ℝ)).computeResults p
    ⟨List.replicate 96000 c, 48000⟩ ⟨List.replicate 48000 c, 48000⟩ = .ok x := by
  obtain ⟨pad, hpad⟩ := pad_exists p
  obtain ⟨z, hz, _⟩ := C70_delay p hpad (ref := ⟨List.replicate 96000 c, 48000⟩) (deg := ⟨List.replicate 48000 c, 48000⟩)
    (by simp only [List.length_replicate]; norm_num) (by simp only [List.length_replicate]; norm_num)
    (by simp only [List.length_replicate]; norm_num) (by simp only [List.length_replicate]; norm_num)
  have hz0 := delay_steady hc (by norm_num) (by norm_num) hz
  subst hz0
  refine (C93_fullband p _ (ref := ⟨List.replicate 96000 c, 48000⟩) (deg := ⟨List.replicate 48000 c, 48000⟩) rfl (by norm_num) (fun v hv => svr_answers hv) rfl ?_ ?_ ?_ ?_ ?_ ?_ ?_ ?_ hpad hz).mpr ⟨?_, ?_, ?_, ?_⟩
  all_goals simp only [shift_zero, List.length_replicate, SmallDrift, columnCount, windowSamples]
  all_goals try norm_num
  intro j hj
  omega

/-- `C93_fullband_panics`: the same with a search window of one patch. -/
example (p : Profile) (c : ℝ) (hc : 0 ≤ c) : ∃ q, ((⟨32, 1, .image 20, .svr ⟨32, fun _ => some (some 3.0)⟩, FilterBank.new 32 50.0⟩ : Manager ℝ)).computeResults p
    ⟨List.replicate 96000 c, 48000⟩ ⟨List.replicate 48000 c, 48000⟩ = .error (.panic q) := by
  obtain ⟨pad, hpad⟩ := pad_exists p
  obtain ⟨z, hz, _⟩ := C70_delay p hpad (ref := ⟨List.replicate 96000 c, 48000⟩) (deg := ⟨List.replicate 48000 c, 48000⟩)
    (by simp only [List.length_replicate]; norm_num) (by simp only [List.length_replicate]; norm_num)
    (by simp only [List.length_replicate]; norm_num) (by simp only [List.length_replicate]; norm_num)
  have hz0 := delay_steady hc (by norm_num) (by norm_num) hz
  subst hz0
  refine (C93_fullband_panics p _ (ref := ⟨List.replicate 96000 c, 48000⟩) (deg := ⟨List.replicate 48000 c, 48000⟩) rfl (by norm_num) (fun v hv => svr_answers hv) rfl ?_ ?_ ?_ ?_ ?_ ?_ ?_ ?_ hpad hz).mpr ⟨?_, ?_, .inr (.inr ⟨3, ?_, ?_⟩)⟩
  all_goals simp only [shift_zero, List.length_replicate, SmallDrift, columnCount, windowSamples]
  all_goals norm_num

/-- `C93_wideband`: two seconds of a steady signal against themselves, even without a search window. -/
example (p : Profile) (u : Bool) : ∃ x, ((⟨21, 0, .vad 30, .speech u, FilterBank.new 21 50.0⟩ : Manager ℝ)).computeResults p
    ⟨List.replicate 32000 1, 16000⟩ ⟨List.replicate 32000 1, 16000⟩ = .ok x := by
  obtain ⟨pad, hpad⟩ := pad_exists p
  obtain ⟨z, hz, _⟩ := C70_delay p hpad (ref := ⟨List.replicate 32000 1, 16000⟩) (deg := ⟨List.replicate 32000 1, 16000⟩)
    (by simp only [List.length_replicate]; norm_num) (by simp only [List.length_replicate]; norm_num)
    (by simp only [List.length_replicate]; norm_num) (by simp only [List.length_replicate]; norm_num)
  have hz0 := delay_steady zero_le_one (by norm_num) (by norm_num) hz
  subst hz0
  have hcol : columnCount 16000 32000 = 97 := by unfold columnCount windowSamples; norm_num
  have hloud : LoudSamples (List.replicate 32000 1) 1 (windowSamples 16000 / 4) 30 := by
    unfold LoudSamples
    have e : ∀ i ∈ Finset.range (windowSamples 16000 / 4), ((pcmLevel 1 ((List.replicate 32000 (1 : ℝ)).getD (14 + 30 * (windowSamples 16000 / 4) + i) 0) : ℤ) : ℝ) ^ 2 = 32767 ^ 2 := by
      intro i hi
      rw [Finset.mem_range] at hi
      have hw : windowSamples 16000 / 4 = 320 := by unfold windowSamples; norm_num
      rw [hw] at hi ⊢
      rw [List.getD_eq_getElem?_getD, List.getElem?_replicate, if_pos (by omega), Option.getD_some]
      have h3 : pcmLevel 1 1 = 32767 := by
        unfold pcmLevel
        rw [if_pos (by norm_num), min_eq_left (Int.le_floor.mpr (by norm_num))]
        rfl
      rw [h3]; norm_num
    rw [Finset.sum_congr rfl e, Finset.sum_const, Finset.card_range, nsmul_eq_mul]
    have : (0 : ℝ) ≤ ((windowSamples 16000 / 4 : ℕ) : ℝ) := Nat.cast_nonneg _
    nlinarith
  refine (C93_wideband p _ (M := 1) rfl (by norm_num) (fun v hv => ⟨_, rfl⟩) rfl ?_ ?_ ?_ ?_ ?_ ?_ ?_ ?_ hpad hz
    (List.mem_replicate.mpr ⟨by norm_num, rfl⟩) (fun x hx => (List.eq_of_mem_replicate hx).le)).mpr
    ⟨?_, ⟨1, le_rfl, ⟨?_, 30, by norm_num, by norm_num, .inr ⟨30, by norm_num, le_rfl, hloud⟩⟩, ?_⟩, fun k hk => ?_⟩
  all_goals try have hk' := hk.1
  all_goals simp only [shift_zero, List.length_replicate, hcol, SmallDrift] at *
  all_goals try omega
  all_goals (simp only [columnCount, windowSamples]; norm_num)

/-- `C93_wideband_panics`: two seconds of silence as reference. -/
example (p : Profile) (u : Bool) : ∃ q, ((⟨21, 60, .vad 30, .speech u, FilterBank.new 21 50.0⟩ : Manager ℝ)).computeResults p
    ⟨List.replicate 32000 0, 16000⟩ ⟨List.replicate 32000 0, 16000⟩ = .error (.panic q) := by
  obtain ⟨pad, hpad⟩ := pad_exists p
  obtain ⟨z, hz, _⟩ := C70_delay p hpad (ref := ⟨List.replicate 32000 0, 16000⟩) (deg := ⟨List.replicate 32000 0, 16000⟩)
    (by simp only [List.length_replicate]; norm_num) (by simp only [List.length_replicate]; norm_num)
    (by simp only [List.length_replicate]; norm_num) (by simp only [List.length_replicate]; norm_num)
  have hz0 := delay_steady le_rfl (by norm_num) (by norm_num) hz
  subst hz0
  refine (C93_wideband_panics p _ (M := 0) rfl (by norm_num) (fun v hv => ⟨_, rfl⟩) rfl ?_ ?_ ?_ ?_ ?_ ?_ ?_ ?_ hpad hz
    (List.mem_replicate.mpr ⟨by norm_num, rfl⟩) (fun x hx => (List.eq_of_mem_replicate hx).le)).mpr ⟨?_, ?_, .inl fun k hk hkept => ?_⟩
  case refine_11 =>
    obtain ⟨_, f, f1, f2, f3⟩ := hkept
    rcases f3 with f3 | ⟨g, _, _, hg⟩
    · omega
    · exfalso
      unfold LoudSamples at hg
      have e : ∀ i ∈ Finset.range (windowSamples 16000 / 4), ((pcmLevel 0 ((List.replicate 32000 (0 : ℝ)).getD (14 + g * (windowSamples 16000 / 4) + i) 0) : ℤ) : ℝ) ^ 2 = 0 := by
        intro i hi
        have h3 : pcmLevel 0 0 = 0 := by
          unfold pcmLevel
          norm_num
        have : (List.replicate 32000 (0 : ℝ)).getD (14 + g * (windowSamples 16000 / 4) + i) 0 = 0 := by
          rw [List.getD_eq_getElem?_getD, List.getElem?_replicate]
          split_ifs <;> rfl
        rw [this, h3]; norm_num
      rw [Finset.sum_congr rfl e, Finset.sum_const_zero] at hg
      have hw : windowSamples 16000 / 4 = 320 := by unfold windowSamples; norm_num
      rw [hw] at hg
      norm_num at hg
  all_goals simp only [shift_zero, List.length_replicate, SmallDrift, columnCount, windowSamples]
  all_goals norm_num

end Visqol
