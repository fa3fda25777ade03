import Verif.Lemmas.Match
import Verif.Props.Nsim
import Verif.Props.Align
import Verif.Props.Manager
import Verif.Props.Patches
import Verif.Num.Dft

/-! # Coarse matching and fine alignment (C32, C35, C36, C52, C57) -/

set_option linter.unusedSectionVars false

namespace Visqol

section any
variable {F : Type} [Flt F]

/-- C32, C35: coarse matching makes a choice for every reported patch - a column of the degraded spectrogram or none - such that
the chosen columns strictly increase, every patch with a choice is reported with the scores and times of that stretch, and
every patch without one as silent.  Reference times are always those of the patch. -/
theorem C32_in_order {p : Profile} {rps : List (Mat F)} {ix : List Nat} {deg : Mat F} {fd : F} {radius : Int}
    {rs : List (PatchSim F)} {pp : Nat} (h : findMostOptimalDegPatches p rps ix deg fd radius = .ok rs)
    (hl : rps.length = ix.length) (hpp : ∀ q ∈ rps, q.ncols = pp) (wd : deg.WF) (hnc : deg.ncols < usizeMod) :
    ∃ c : List (Option Nat), c.length = rs.length ∧ rs.length ≤ rps.length ∧ InOrder c ∧ (∀ o ∈ c.filterMap id, o < deg.ncols) ∧
      ∀ k < rs.length, ∃ r x m i, rs[k]? = some r ∧ c[k]? = some x ∧ rps[k]? = some m ∧ ix[k]? = some i ∧
        Reports p deg m fd (fd * Flt.ofNat pp) r x ∧
        r.refStart = Flt.ofNat i * fd ∧ r.refEnd = Flt.ofNat i * fd + fd * Flt.ofNat pp := by
  unfold findMostOptimalDegPatches at h
  obtain ⟨first, hf, h⟩ := bind_ok h
  obtain ⟨sw, _, h⟩ := bind_ok h
  obtain ⟨n, hn, h⟩ := bind_ok h
  have hfp : first.ncols = pp := hpp _ (List.mem_of_getElem? (idx_ok hf))
  rw [hfp] at h hn
  split at h
  · cases h
  · obtain ⟨dps, _, h⟩ := bind_ok h
    obtain ⟨rows, hrows, h⟩ := bind_ok h
    obtain ⟨li, _, h⟩ := bind_ok h
    obtain ⟨lo, _, h⟩ := bind_ok h
    obtain ⟨up, _, h⟩ := bind_ok h
    obtain ⟨up2, _, h⟩ := bind_ok h
    obtain ⟨lr, _, h⟩ := bind_ok h
    obtain ⟨best, _, h⟩ := bind_ok h
    have hrl := dpRows_length _ _ _ hrows
    rw [List.length_zip] at hrl
    have hn' : n ≤ ix.length := by
      unfold calcMaxNumPatches at hn
      split at hn
      · cases hn; omega
      · exact (calcMaxLoop_le hn).2
    have hbt : ∀ x ∈ ((rps.zip (ix.zip (rows.map Prod.snd))).take n).reverse, x.2.2.length = deg.ncols ∧
        ∀ o b, x.2.2[o]? = some b → b ≤ o ∨ deg.ncols ≤ b := by
      intro x hx
      have hx := List.mem_of_mem_take (List.mem_reverse.mp hx)
      obtain ⟨k, hk⟩ := List.getElem?_of_mem hx
      have hk2 := (List.of_mem_zip (List.of_mem_zip hx).2).2
      obtain ⟨r, hr, hr2⟩ := List.mem_map.mp hk2
      obtain ⟨j, hj⟩ := List.getElem?_of_mem hr
      have hjl : j < (rps.zip ix).length := by
        have := (List.getElem?_eq_some_iff.mp hj).1
        rw [List.length_zip]; omega
      obtain ⟨r', e1, prev', e2, _⟩ := dpRows_get _ _ _ hrows j _ _ (List.getElem?_eq_getElem hjl)
      rw [hj] at e1
      cases e1
      rw [← hr2]
      exact findOne_back e2 hnc
    obtain ⟨l1, c, c1, c2, c3, c4⟩ := backtrack_choices wd _ _ _ hbt h
    rw [List.reverse_reverse] at c4
    rw [List.length_reverse, List.length_take, List.length_zip, List.length_zip, List.length_map, hrl] at l1 c1
    refine ⟨c, by omega, by omega, c2, fun o ho => (c3 o ho).2, fun k hk => ?_⟩
    have hk1 : k < rps.length := by omega
    have hk2 : k < ix.length := by omega
    have hk3 : k < (rows.map Prod.snd).length := by rw [List.length_map]; omega
    obtain ⟨r, x, e1, e2, e3, e4, e5⟩ := c4 k rps[k] ix[k] (rows.map Prod.snd)[k] (by
      rw [List.getElem?_take, if_pos (by omega), List.getElem?_eq_getElem (by rw [List.length_zip, List.length_zip]; omega),
        List.getElem_zip, List.getElem_zip])
    exact ⟨r, x, _, _, e1, e2, List.getElem?_eq_getElem hk1, List.getElem?_eq_getElem hk2, e3, e4, e5⟩

/-- C35: every reported patch either has a match or is reported as silent: similarity 0, band means 0, degraded times 0..0. -/
theorem C35_matched_or_silent {p : Profile} {rps : List (Mat F)} {ix : List Nat} {deg : Mat F} {fd : F} {radius : Int}
    {rs : List (PatchSim F)} {pp : Nat} (h : findMostOptimalDegPatches p rps ix deg fd radius = .ok rs)
    (hl : rps.length = ix.length) (hpp : ∀ q ∈ rps, q.ncols = pp) (wd : deg.WF) (hnc : deg.ncols < usizeMod) :
    ∀ (k : Nat) r, rs[k]? = some r → Unmatched r ∨
      ∃ m o, rps[k]? = some m ∧ o < deg.ncols ∧ MatchedAt p deg m fd (fd * Flt.ofNat pp) o r := by
  intro k r hr
  obtain ⟨c, c1, c2, c3, c4, c5⟩ := C32_in_order h hl hpp wd hnc
  obtain ⟨r', x, m, i, e1, e2, e3, e4, e5, _⟩ := c5 k (List.getElem?_eq_some_iff.mp hr).1
  rw [hr] at e1; cases e1
  cases x with
  | none => exact .inl e5
  | some o => exact .inr ⟨m, o, e3, c4 o (List.mem_filterMap.mpr ⟨some o, List.mem_of_getElem? e2, rfl⟩), e5⟩

/-- C52, coarse matching: the reported reference interval starts at the patch's first column and lasts one patch, and so does the
degraded interval of a matched patch. -/
theorem C52_coarse_times {p : Profile} {rps : List (Mat F)} {ix : List Nat} {deg : Mat F} {fd : F} {radius : Int}
    {rs : List (PatchSim F)} {pp : Nat} (h : findMostOptimalDegPatches p rps ix deg fd radius = .ok rs)
    (hl : rps.length = ix.length) (hpp : ∀ q ∈ rps, q.ncols = pp) (wd : deg.WF) (hnc : deg.ncols < usizeMod) :
    ∀ (k : Nat) r, rs[k]? = some r → r.refEnd = r.refStart + fd * Flt.ofNat pp ∧
      (∃ i, ix[k]? = some i ∧ r.refStart = Flt.ofNat i * fd) ∧
      (Unmatched r ∨ ((∃ o < deg.ncols, r.degStart = Flt.ofNat o * fd) ∧ r.degEnd = r.degStart + fd * Flt.ofNat pp)) := by
  intro k r hr
  obtain ⟨c, c1, c2, c3, c4, c5⟩ := C32_in_order h hl hpp wd hnc
  obtain ⟨r', x, m, i, e1, e2, e3, e4, e5, e6, e7⟩ := c5 k (List.getElem?_eq_some_iff.mp hr).1
  rw [hr] at e1; cases e1
  refine ⟨by rw [e6, e7], ⟨i, e4, e6⟩, ?_⟩
  cases x with
  | none => exact .inl e5
  | some o =>
    have e5 : MatchedAt p deg m fd (fd * Flt.ofNat pp) o r := e5
    refine .inr ⟨⟨o, c4 o (List.mem_filterMap.mpr ⟨some o, List.mem_of_getElem? e2, rfl⟩), e5.start⟩, ?_⟩
    rw [e5.start, e5.stop]

variable [RustFft F]

/-- C36: fine alignment keeps the number and order of the patches, and each patch is either unchanged or replaced by one whose
similarity is not less. -/
theorem C36_never_lower {p : Profile} {nb : Nat} {ref deg : AudioSignal F} {w : AnalysisWindow F} :
    ∀ {rs rs' : List (PatchSim F)} {fb fb' : FilterBank F}, finelyAlign p nb ref deg w fb rs = .ok (fb', rs') →
      rs'.length = rs.length ∧ ∀ (k : Nat) r, rs[k]? = some r → ∃ r', rs'[k]? = some r' ∧
        (r' = r ∨ Flt.lt r'.similarity r.similarity = false)
  | [], _, _, _, h => by cases h; simp
  | r :: rs, _, _, _, h => by
    obtain ⟨⟨f1, r1⟩, h1, h⟩ := bind_ok h
    obtain ⟨⟨f2, r2⟩, h2, h⟩ := bind_ok h
    cases h
    obtain ⟨e1, e2⟩ := C36_never_lower h2
    refine ⟨by simp only [List.length_cons]; omega, fun k q hq => ?_⟩
    cases k with
    | succ k => simpa using e2 k q (by simpa using hq)
    | zero =>
      simp only [List.getElem?_cons_zero, Option.some.injEq] at hq
      subst hq
      refine ⟨r1, rfl, ?_⟩
      unfold finelyAlignPatch at h1
      split at h1
      · cases h1; exact .inl rfl
      · obtain ⟨ra, _, h⟩ := bind_ok h1
        obtain ⟨da, _, h⟩ := bind_ok h
        obtain ⟨o, _, h⟩ := bind_ok h
        cases o with
        | none => cases h
        | some t =>
          obtain ⟨⟨fb1, rs⟩, _, h⟩ := bind_ok h
          obtain ⟨⟨fb2, ds⟩, _, h⟩ := bind_ok h
          obtain ⟨⟨ma, mb⟩, _, h⟩ := bind_ok h
          obtain ⟨n, _, h⟩ := bind_ok h
          dsimp only at h
          split at h
          · cases h; exact .inl rfl
          · rename_i hlt
            cases h
            exact .inr (by simpa using hlt)

/-- C35: fine alignment passes a patch without a match through unchanged (in any arithmetic where 0 equals itself). -/
theorem C35_silent_unchanged (h0 : Flt.eq (0.0 : F) 0.0 = true) {p : Profile} {nb : Nat} {ref deg : AudioSignal F}
    {w : AnalysisWindow F} : ∀ {rs rs' : List (PatchSim F)} {fb fb' : FilterBank F},
      finelyAlign p nb ref deg w fb rs = .ok (fb', rs') → ∀ (k : Nat) r, rs[k]? = some r → Unmatched r → rs'[k]? = some r
  | [], _, _, _, h => by cases h; simp
  | r :: rs, _, _, _, h => by
    obtain ⟨⟨f1, r1⟩, h1, h⟩ := bind_ok h
    obtain ⟨⟨f2, r2⟩, h2, h⟩ := bind_ok h
    cases h
    intro k q hq hu
    cases k with
    | succ k => simpa using C35_silent_unchanged h0 h2 k q (by simpa using hq) hu
    | zero =>
      simp only [List.getElem?_cons_zero, Option.some.injEq] at hq
      subst hq
      unfold finelyAlignPatch at h1
      rw [hu.start, hu.stop, h0] at h1
      cases h1
      rfl

end any

/-- C32, exact arithmetic: among the patches with a nonempty degraded interval, later patches start strictly later. -/
theorem C32_times_increase {p : Profile} {rps : List (Mat ℝ)} {ix : List Nat} {deg : Mat ℝ} {fd : ℝ} {radius : Int}
    {rs : List (PatchSim ℝ)} {pp : Nat} (h : findMostOptimalDegPatches p rps ix deg fd radius = .ok rs)
    (hl : rps.length = ix.length) (hpp : ∀ q ∈ rps, q.ncols = pp) (wd : deg.WF) (hnc : deg.ncols < usizeMod) (hfd : 0 < fd)
    {i j : Nat} {a b : PatchSim ℝ} (hij : i < j) (ha : rs[i]? = some a) (hb : rs[j]? = some b)
    (ham : a.degStart < a.degEnd) (hbm : b.degStart < b.degEnd) : a.degStart < b.degStart := by
  obtain ⟨c, c1, _, c3, _, c5⟩ := C32_in_order h hl hpp wd hnc
  have hi : i < rs.length := (List.getElem?_eq_some_iff.mp ha).1
  have hj : j < rs.length := (List.getElem?_eq_some_iff.mp hb).1
  obtain ⟨a', x, _, _, a1, a2, _, _, a5, _⟩ := c5 i hi
  obtain ⟨b', y, _, _, b1, b2, _, _, b5, _⟩ := c5 j hj
  rw [ha] at a1; cases a1
  rw [hb] at b1; cases b1
  have key : ∀ {r : PatchSim ℝ} {x : Option Nat} {m : Mat ℝ} {pd : ℝ}, Reports p deg m fd pd r x → r.degStart < r.degEnd →
      ∃ o, x = some o ∧ r.degStart = o * fd := by
    intro r x m pd hr hlt
    cases x with
    | none =>
      have hr : Unmatched r := hr
      rw [hr.start, hr.stop] at hlt
      exact absurd hlt (lt_irrefl _)
    | some o =>
      have hr : MatchedAt p deg m fd pd o r := hr
      exact ⟨o, rfl, hr.start⟩
  obtain ⟨o1, rfl, e1⟩ := key a5 ham
  obtain ⟨o2, rfl, e2⟩ := key b5 hbm
  have hlt : o1 < o2 := by
    have hsplit : c = c.take j ++ c.drop j := (List.take_append_drop j c).symm
    rw [hsplit] at c3
    unfold InOrder at c3
    rw [List.filterMap_append, List.pairwise_append] at c3
    refine c3.2.2 o1 ?_ o2 ?_
    · refine List.mem_filterMap.mpr ⟨some o1, ?_, rfl⟩
      exact List.mem_of_getElem? (i := i) (by rw [List.getElem?_take, if_pos hij]; exact a2)
    · refine List.mem_filterMap.mpr ⟨some o2, ?_, rfl⟩
      exact List.mem_of_getElem? (i := 0) (by rw [List.getElem?_drop]; exact b2)
  rw [e1, e2]
  have : (o1 : ℝ) < o2 := by exact_mod_cast hlt
  exact mul_lt_mul_of_pos_right this hfd

/-- C35, exact arithmetic: the same without a hypothesis on the arithmetic. -/
theorem C35_silent_unchanged_exact {p : Profile} {nb : Nat} {ref deg : AudioSignal ℝ}
    {w : AnalysisWindow ℝ} {rs rs' : List (PatchSim ℝ)} {fb fb' : FilterBank ℝ}
    (h : finelyAlign p nb ref deg w fb rs = .ok (fb', rs')) {k : Nat} {r : PatchSim ℝ} (hk : rs[k]? = some r)
    (hu : Unmatched r) : rs'[k]? = some r :=
  C35_silent_unchanged (by simp only [real_lit0, real_eq]; simp) h k r hk hu

/-- C36, exact arithmetic. -/
theorem C36_never_lower_exact {p : Profile} {nb : Nat} {ref deg : AudioSignal ℝ} {w : AnalysisWindow ℝ}
    {rs rs' : List (PatchSim ℝ)} {fb fb' : FilterBank ℝ} (h : finelyAlign p nb ref deg w fb rs = .ok (fb', rs')) :
    rs'.length = rs.length ∧ ∀ (k : Nat) r r', rs[k]? = some r → rs'[k]? = some r' → r.similarity ≤ r'.similarity := by
  obtain ⟨h1, h2⟩ := C36_never_lower h
  refine ⟨h1, fun k r r' hr hr' => ?_⟩
  obtain ⟨q, hq, h3⟩ := h2 k r hr
  rw [hr'] at hq; cases hq
  rcases h3 with rfl | h3
  · exact le_refl _
  · simpa using h3

/-- The length of a slice, from its success alone. -/
theorem sliceSignal_length {s out : AudioSignal ℝ} {a b : ℝ} (h : sliceSignal s a b = .ok out) (ha : 0 ≤ a) (hab : a ≤ b)
    (hb : b * s.sampleRate < 18446744073709551616) :
    out.data.length = ⌊b * s.sampleRate⌋₊ - ⌊a * s.sampleRate⌋₊ ∧ out.sampleRate = s.sampleRate := by
  have hfs : (0 : ℝ) ≤ s.sampleRate := Nat.cast_nonneg _
  have hA : a * s.sampleRate ≤ b * s.sampleRate := mul_le_mul_of_nonneg_right hab hfs
  have hin : ⌊a * s.sampleRate⌋₊ ≤ s.data.length := by
    have h' := h
    unfold sliceSignal at h'
    obtain ⟨d, hd, _⟩ := bind_ok h'
    obtain ⟨h1, h2, _⟩ := sliceM_ok hd
    have e1 : Flt.toUsize (a * (Flt.ofNat s.sampleRate : ℝ)) = ⌊a * s.sampleRate⌋₊ :=
      real_toUsize_floor (mul_nonneg ha hfs) (hA.trans_lt hb)
    rw [e1] at h1
    omega
  obtain ⟨d, h1, h2, _⟩ := C38_slice s ha hab hin hb
  rw [h] at h1
  cases h1
  exact ⟨h2, rfl⟩

/-- C52, fine alignment (exact arithmetic): a patch is either unchanged, or its two reported intervals have equal length and
exactly one of its start times has moved, forward, by at most half the patch. -/
theorem C52_fine_times {p : Profile} {nb : Nat} {ref deg : AudioSignal ℝ} {w : AnalysisWindow ℝ} {fb fb' : FilterBank ℝ}
    {r r' : PatchSim ℝ} (h : finelyAlignPatch p nb ref deg w fb r = .ok (fb', r'))
    (hsr : ref.sampleRate = deg.sampleRate) (h0 : 0 < ref.sampleRate) (hr0 : 0 ≤ r.refStart) (hr1 : r.refStart ≤ r.refEnd)
    (hb : r.refEnd * ref.sampleRate < 18446744073709551616) :
    r' = r ∨ (r'.refEnd - r'.refStart = r'.degEnd - r'.degStart ∧
      ∃ lag : Nat, lag ≤ (⌊r.refEnd * ref.sampleRate⌋₊ - ⌊r.refStart * ref.sampleRate⌋₊) / 2 ∧
        ((r'.refStart = r.refStart + lag / ref.sampleRate ∧ r'.degStart = r.degStart) ∨
          (r'.refStart = r.refStart ∧ r'.degStart = r.degStart + lag / ref.sampleRate))) := by
  unfold finelyAlignPatch at h
  split at h
  · cases h; exact .inl rfl
  · obtain ⟨ra, h1, h⟩ := bind_ok h
    obtain ⟨da, h2, h⟩ := bind_ok h
    obtain ⟨o, h3, h⟩ := bind_ok h
    cases o with
    | none => cases h
    | some t =>
      obtain ⟨raa, daa, lag⟩ := t
      obtain ⟨⟨fb1, rs⟩, _, h⟩ := bind_ok h
      obtain ⟨⟨fb2, ds⟩, _, h⟩ := bind_ok h
      obtain ⟨⟨ma, mb⟩, _, h⟩ := bind_ok h
      obtain ⟨n, _, h⟩ := bind_ok h
      dsimp only at h
      split at h
      · cases h; exact .inl rfl
      · cases h
        right
        obtain ⟨l1, s1⟩ := sliceSignal_length h1 hr0 hr1 hb
        have s2 : da.sampleRate = deg.sampleRate := by
          unfold sliceSignal at h2
          obtain ⟨d, _, h2⟩ := bind_ok h2
          cases h2; rfl
        obtain ⟨g1, g2, g3, al, off, g4, _⟩ := C37_equal_length (by rw [s1, s2, hsr]) h3
        have hdur : raa.duration = daa.duration := by
          unfold AudioSignal.duration
          rw [g1, g2, g3, s1, s2, hsr]
        have hlag : ∃ z : Int, z.natAbs ≤ (⌊r.refEnd * ref.sampleRate⌋₊ - ⌊r.refStart * ref.sampleRate⌋₊) / 2 ∧
            lag = (z : ℝ) / ref.sampleRate := by
          obtain ⟨_, ⟨_, ht⟩ | ⟨z, _, hz, ht, _⟩⟩ := C39_only_shifts g4
          · exact ⟨0, by simp, by rw [ht, real_lit0]; simp⟩
          · refine ⟨z, by rw [← l1]; exact hz, ?_⟩
            rw [ht, s2, ← hsr]; simp
        obtain ⟨z, hz, rfl⟩ := hlag
        have hpos : (0 : ℝ) < ref.sampleRate := by exact_mod_cast h0
        have hcast : ∀ {z : Int}, 0 ≤ z → ((z.natAbs : ℕ) : ℝ) = (z : ℝ) := by
          intro z hz
          rw [Nat.cast_natAbs, abs_of_nonneg hz]
        by_cases hc : Flt.lt (0.0 : ℝ) ((z : ℝ) / ref.sampleRate) = true
        · simp only [if_pos hc]
          refine ⟨by rw [hdur]; ring, z.natAbs, hz, .inl ⟨?_, trivial⟩⟩
          have hz0 : 0 < z := by
            simp only [real_lt, real_lit0, decide_eq_true_eq] at hc
            have := (div_pos_iff_of_pos_right hpos).mp hc
            exact_mod_cast this
          rw [hcast hz0.le]
        · simp only [if_neg hc]
          refine ⟨by rw [hdur]; ring, z.natAbs, hz, .inr ⟨trivial, ?_⟩⟩
          have hz0 : z ≤ 0 := by
            simp only [real_lt, real_lit0, decide_eq_true_eq, not_lt] at hc
            by_contra hcon
            have : (0 : ℝ) < z := by exact_mod_cast (not_le.mp hcon)
            have := div_pos this hpos
            linarith
          have e : ((z.natAbs : ℕ) : ℝ) = -(z : ℝ) := by
            rw [Nat.cast_natAbs, abs_of_nonpos hz0]; push_cast; ring
          rw [e]; ring

section
variable {F : Type} [Flt F] [RustFft F]

/-- Frames per patch of the two modes as the code uses them. -/
def Variant.framesPerPatch : Variant → Nat
  | .wideband _ => 30
  | .fullband _ => 20

/-- C57: in every successful comparison by a manager, after any history, all reference patches have 30 columns in the wideband
(speech) mode and 20 in the fullband (audio) mode, and before fine alignment every patch is reported to last that many column
durations. -/
theorem C57_patch_sizes {p : Profile} {world : World F} {nb sw : Nat} {v : Variant} {m₀ m m' : Manager F}
    {ref deg : AudioSignal F} {res : SimilarityResult F} (hm : Manager.new world nb v sw = .ok m₀) (ha : After p m₀ m)
    (hlen : ref.data.length + deg.data.length < 9223372036854775808)
    (h : m.computeResults p ref deg = .ok (m', res)) :
    ∃ al, ∃ st : Stages p m.numBands m.filterBank ref al (AnalysisWindow.mk' ref.sampleRate 0.25 0.08) m.patchCreator
        m.mapper m.searchWindow res, (∀ q ∈ st.patches, q.ncols = v.framesPerPatch) ∧
      ∀ r ∈ st.coarse, r.refEnd = r.refStart +
        (Flt.ofNat (AnalysisWindow.mk' (F := F) ref.sampleRate 0.25 0.08).size * 0.25 / Flt.ofNat ref.sampleRate) *
          Flt.ofNat v.framesPerPatch := by
  have hps : m.patchCreator.patchSize = v.framesPerPatch := by
    rw [(ha.sim).2.2.1]
    unfold Manager.new at hm
    cases v with
    | wideband u => cases hm; rfl
    | fullband path =>
      obtain ⟨_, _, hm⟩ := bind_ok hm
      cases hm; rfl
  obtain ⟨al, lag, hal, ⟨st⟩⟩ := computeResults_stages h
  refine ⟨al, st, ?_, ?_⟩
  all_goals
    obtain ⟨w1, w2, _, _, h5, h6⟩ := st.shapes
    obtain ⟨c1, c2⟩ := createPatches_ok st.created w1
    have hpp : ∀ q ∈ st.patches, q.ncols = v.framesPerPatch := fun q hq => (c2 q hq).2.2.trans hps
  · exact hpp
  · intro r hr
    obtain ⟨k, hk⟩ := List.getElem?_of_mem hr
    have hlal := globallyAlign_length hal
    refine (C52_coarse_times st.found c1 hpp w2 ?_ k r hk).1
    rw [h6]
    have := @numColumns_le al.data.length (AnalysisWindow.mk' (F := F) ref.sampleRate 0.25 0.08).size
      (AnalysisWindow.mk' (F := F) ref.sampleRate 0.25 0.08).hop
    unfold usizeMod; omega

end

end Visqol
