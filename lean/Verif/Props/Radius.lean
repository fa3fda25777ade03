import Verif.Props.Options
import Verif.Props.NoFailureIeee
import Verif.Props.Loading

/-! # A search radius that covers the files (C80) -/

set_option linter.unusedSectionVars false

namespace Visqol

theorem bind_congr_ok {α β : Type} {x : M α} {f g : α → M β} (h : ∀ v, x = .ok v → f v = g v) : (x >>= f) = (x >>= g) := by
  cases x with
  | error e => rfl
  | ok v => exact h v rfl

/-- Beyond the number of columns the upper end of the slide loop is irrelevant. -/
theorem slideLoop_top {σ : Type} {hi hi' : Int} {ncols : Nat} {body : σ → Nat → M σ} (h : (ncols : Int) ≤ hi) (h' : (ncols : Int) ≤ hi') :
    ∀ (d : Nat) (o : Int) (s : σ), 0 ≤ o → o + d = ncols → slideLoop hi ncols body o s = slideLoop hi' ncols body o s
  | 0, o, s, h0, hd => by
    have e : ∀ u : Int, (ncols : Int) ≤ u → slideLoop u ncols body o s = .ok s := fun u hu => by
      rw [slideLoop, if_pos (by omega), if_neg (by omega), if_pos (by omega)]
    rw [e hi h, e hi' h']
  | d + 1, o, s, h0, hd => by
    have e : ∀ u : Int, (ncols : Int) ≤ u → slideLoop u ncols body o s =
        (body s o.toNat >>= fun s' => slideLoop u ncols body (o + 1) s') := fun u hu => by
      rw [slideLoop, if_pos (by omega), if_neg (by omega), if_neg (by omega)]
    rw [e hi h, e hi' h']
    exact bind_congr_ok fun v _ => slideLoop_top h h' d (o + 1) v (by omega) (by omega)

/-- From below zero the slide loop starts at zero. -/
theorem slideLoop_start {σ : Type} {hi : Int} {ncols : Nat} {body : σ → Nat → M σ} (h : 0 ≤ hi) {lo : Int} (hl : lo ≤ 0) (s : σ) :
    slideLoop hi ncols body lo s = slideLoop hi ncols body 0 s := by
  rcases eq_or_lt_of_le hl with rfl | hl
  · rfl
  · rw [slideLoop, if_pos (by omega), if_pos hl]

theorem slideLoop_all {σ : Type} {hi hi' lo lo' : Int} {ncols : Nat} {body : σ → Nat → M σ} (h : (ncols : Int) ≤ hi) (h' : (ncols : Int) ≤ hi')
    (hl : lo ≤ 0) (hl' : lo' ≤ 0) (s : σ) : slideLoop hi ncols body lo s = slideLoop hi' ncols body lo' s := by
  rw [slideLoop_start (by omega) hl, slideLoop_start (by omega) hl']
  exact slideLoop_top h h' ncols 0 s le_rfl (by omega)

variable {F : Type} [Flt F]

/-- A search window (in columns) that covers everything: it is at least as large as the number of columns of the degraded
signal and as the position of every reference patch, and no `i32` addition overflows. -/
structure Covers (sw : Int) (ix : List Nat) (ncols : Nat) : Prop where
  all : (ncols : Int) ≤ sw
  reach : ∀ i ∈ ix, (i : Int) ≤ sw
  fits : ∀ i ∈ ix, (i : Int) + sw ≤ 2147483647
  size : sw ≤ 2147483647

theorem dpCell_covers {p : Profile} {prev : Option (Nat × List F)} {sw sw' : Int} {ix : List Nat} {ncols : Nat} (h : Covers sw ix ncols)
    (h' : Covers sw' ix ncols) (hp : ∀ x, prev = some x → x.1 ∈ ix) (o : Nat) (sim : F) :
    dpCell p prev sw o sim = dpCell p prev sw' o sim := by
  cases prev with
  | none => rfl
  | some x =>
    obtain ⟨i, row⟩ := x
    have hi := hp _ rfl
    have a1 := h.reach i hi
    have a2 := h'.reach i hi
    have a3 := h.fits i hi
    have a4 := h'.fits i hi
    have a5 := h.size
    have a6 := h'.size
    unfold dpCell
    dsimp only
    rw [wrapI32_of_mem (by omega) (by omega), i32_of_mem (by omega) (by omega), i32_of_mem (by omega) (by omega)]
    simp only [ok_bind]
    rw [max_eq_right (by omega), max_eq_right (by omega)]

theorem findOne_covers {p : Profile} {ncols : Nat} {q : Mat F} {ds : List (Mat F)} {prev : Option (Nat × List F)} {i : Nat} {sw sw' : Int}
    {ix : List Nat} (h : Covers sw ix ncols) (h' : Covers sw' ix ncols) (hp : ∀ x, prev = some x → x.1 ∈ ix) (hi : i ∈ ix) :
    findMostOptimalDegPatch p ncols q ds prev i sw = findMostOptimalDegPatch p ncols q ds prev i sw' := by
  have a0 := h.all
  have a0' := h'.all
  have a1 := h.reach i hi
  have a2 := h'.reach i hi
  have a3 := h.fits i hi
  have a4 := h'.fits i hi
  have a5 := h.size
  have a6 := h'.size
  unfold findMostOptimalDegPatch
  rw [wrapI32_of_mem (by omega) (by omega), i32_of_mem (by omega) (by omega), i32_of_mem (by omega) (by omega),
    i32_of_mem (by omega) (by omega), i32_of_mem (by omega) (by omega)]
  simp only [ok_bind]
  simp only [dpCell_covers h h' hp]
  exact slideLoop_all (by omega) (by omega) (by omega) (by omega) _

theorem dpRows_covers {p : Profile} {ncols : Nat} {ds : List (Mat F)} {sw sw' : Int} {ix : List Nat} (h : Covers sw ix ncols)
    (h' : Covers sw' ix ncols) : ∀ (l : List (Mat F × Nat)) (prev : Option (Nat × List F)), (∀ x ∈ l, x.2 ∈ ix) →
      (∀ x, prev = some x → x.1 ∈ ix) → dpRows p ncols ds sw prev l = dpRows p ncols ds sw' prev l
  | [], _, _, _ => rfl
  | (q, i) :: rest, prev, hl, hp => by
    unfold dpRows
    have hi : i ∈ ix := hl (q, i) (by simp)
    rw [findOne_covers h h' hp hi]
    refine bind_congr_ok fun r _ => ?_
    rw [dpRows_covers h h' rest (some (i, r.1)) (fun x hx => hl x (by simp [hx])) (fun x hx => by cases hx; exact hi)]

/-- Matching does not depend on the radius once the search window covers everything. -/
theorem find_covers {p : Profile} {rps : List (Mat F)} {ix : List Nat} {deg : Mat F} {fd : F} {k k' pp : Nat}
    (hpp : ∀ q ∈ rps, q.ncols = pp) (hpp1 : pp < 2147483648) (h : Covers ((k * pp : Nat) : Int) ix deg.ncols)
    (h' : Covers ((k' * pp : Nat) : Int) ix deg.ncols) :
    findMostOptimalDegPatches p rps ix deg fd k = findMostOptimalDegPatches p rps ix deg fd k' := by
  unfold findMostOptimalDegPatches
  refine bind_congr_ok fun first hf => ?_
  have hfirst := hpp first (List.mem_of_getElem? (idx_ok hf))
  have e5 := h.size
  have e6 := h'.size
  dsimp only
  rw [hfirst, wrapI32_of_mem (z := (pp : Int)) (by omega) (by omega)]
  have e1 : ((k : Int) * (pp : Int)) = ((k * pp : Nat) : Int) := by push_cast; rfl
  have e2 : ((k' : Int) * (pp : Int)) = ((k' * pp : Nat) : Int) := by push_cast; rfl
  rw [e1, e2]
  generalize k * pp = sw at *
  generalize k' * pp = sw' at *
  rw [i32_of_mem (by omega) (by omega), i32_of_mem (by omega) (by omega)]
  simp only [ok_bind]
  refine bind_congr_ok fun n _ => ?_
  split
  · rfl
  refine bind_congr_ok fun ds _ => ?_
  rw [dpRows_covers h h' _ none (fun x hx => (List.of_mem_zip hx).2) (fun x hx => by cases hx)]
  refine bind_congr_ok fun rows _ => ?_
  refine bind_congr_ok fun last hlast => ?_
  have hi := List.mem_of_getElem? (idx_ok hlast)
  have a0 := h.all
  have a0' := h'.all
  have a1 := h.reach last hi
  have a2 := h'.reach last hi
  have a3 := h.fits last hi
  have a4 := h'.fits last hi
  have hu : ∀ s : Nat, (s : Int) ≤ 2147483647 → i32ToUsize (s : Int) = s := by
    intro s _
    unfold i32ToUsize
    rw [if_pos (by omega)]; rfl
  have hadd : ∀ a b : Nat, a + b < 18446744073709551616 → uadd p a b = .ok (a + b) := by
    intro a b hab
    unfold uadd usizeMod
    rw [if_pos (by omega)]
  rw [hu sw e5, hu sw' e6, wrapI32_of_mem (by omega) (by omega), i32_of_mem (by omega) (by omega), i32_of_mem (by omega) (by omega),
    hadd _ _ (by omega), hadd _ _ (by omega)]
  simp only [ok_bind]
  rw [hadd _ _ (by omega), hadd _ _ (by omega)]
  simp only [ok_bind]
  refine bind_congr_ok fun lastRow _ => ?_
  have e : lastOffsets (max 0 ((last : Int) - sw)).toNat (last + sw + 1) deg.ncols =
      lastOffsets (max 0 ((last : Int) - sw')).toNat (last + sw' + 1) deg.ncols := by
    unfold lastOffsets
    rw [max_eq_left (by omega), max_eq_left (by omega), min_eq_right (by omega), min_eq_right (by omega)]
  rw [e]

variable [RustFft F]

/-- Search radius `k` (in patches of `pp` columns) covers a comparison: `k` patches are at least as many columns as the reference has
and as the degraded signal can have after global alignment, and the position of the end of the window is below `2^31`. -/
structure RadiusCovers (F : Type) [Flt F] (k pp : Nat) (ref deg : AudioSignal F) : Prop where
  refCols : numColumns ref.data.length (AnalysisWindow.mk' (F := F) ref.sampleRate 0.25 0.08).size
    (AnalysisWindow.mk' (F := F) ref.sampleRate 0.25 0.08).hop ≤ k * pp
  degCols : numColumns (deg.data.length + ref.data.length / 2) (AnalysisWindow.mk' (F := F) ref.sampleRate 0.25 0.08).size
    (AnalysisWindow.mk' (F := F) ref.sampleRate 0.25 0.08).hop ≤ k * pp
  fits : 2 * (k * pp) ≤ 2147483647

/-- C80: two search radii that both cover a comparison give the same outcome (result, error or panic). -/
theorem C80_radius_irrelevant {p : Profile} {m : Manager F} {k k' : Nat} {ref deg : AudioSignal F} (hp0 : 0 < m.patchCreator.patchSize)
    (hk : RadiusCovers F k m.patchCreator.patchSize ref deg) (hk' : RadiusCovers F k' m.patchCreator.patchSize ref deg) :
    returned (({ m with searchWindow := k } : Manager F).computeResults p ref deg) =
      returned (({ m with searchWindow := k' } : Manager F).computeResults p ref deg) := by
  have hle : ∀ k, RadiusCovers F k m.patchCreator.patchSize ref deg → k ≤ 1073741823 := by
    intro k hk
    have h1 := hk.fits
    have h2 := Nat.le_mul_of_pos_right k hp0
    omega
  have hwrap : ∀ k, RadiusCovers F k m.patchCreator.patchSize ref deg → wrapI32 (k : Int) = k := by
    intro k hk
    have := hle k hk
    exact wrapI32_of_mem (by omega) (by omega)
  have hpp : m.patchCreator.patchSize < 2147483648 := by
    have h1 := hk.fits
    have h2 : 0 < k := by
      rcases Nat.eq_zero_or_pos k with h | h
      · have := hk.refCols
        rw [h, Nat.zero_mul] at this
        unfold numColumns at this
        have := Nat.le_add_right 1 ((ref.data.length - (AnalysisWindow.mk' (F := F) ref.sampleRate 0.25 0.08).size) /
          (AnalysisWindow.mk' (F := F) ref.sampleRate 0.25 0.08).hop)
        omega
      · exact h
    have h3 := Nat.le_mul_of_pos_left m.patchCreator.patchSize h2
    omega
  unfold Manager.computeResults
  cases hal : globallyAlign p ref deg with
  | error e => simp only [error_bind]
  | ok o =>
    cases o with
    | none => simp only [ok_bind]
    | some t =>
      obtain ⟨al, lag⟩ := t
      have hlal := globallyAlign_length hal
      simp only [ok_bind]
      have hcs : calculateSimilarity p m.numBands m.filterBank ref al (AnalysisWindow.mk' ref.sampleRate 0.25 0.08) m.patchCreator m.mapper k =
          calculateSimilarity p m.numBands m.filterBank ref al (AnalysisWindow.mk' ref.sampleRate 0.25 0.08) m.patchCreator m.mapper k' := by
        unfold calculateSimilarity
        refine bind_congr_ok fun ⟨fb1, rs⟩ h1 => ?_
        refine bind_congr_ok fun ⟨fb2, ds⟩ h2 => ?_
        refine bind_congr_ok fun ⟨rm, dm⟩ h3 => ?_
        refine bind_congr_ok fun ix h4 => ?_
        refine bind_congr_ok fun ps h5 => ?_
        dsimp only at h2 h3 h4 h5 ⊢
        obtain ⟨_, _, _, a4, _⟩ := buildSpectrogram_ok h1
        obtain ⟨_, _, _, b4, _⟩ := buildSpectrogram_ok h2
        rw [a4, b4] at h3
        obtain ⟨w1, _, _, _, q1, q2⟩ := prepare_shape h3 (spectroMat_wf _ _ _ _) (spectroMat_wf _ _ _ _)
        have q1 : rm.ncols = numColumns ref.data.length (AnalysisWindow.mk' (F := F) ref.sampleRate 0.25 0.08).size
            (AnalysisWindow.mk' (F := F) ref.sampleRate 0.25 0.08).hop := q1
        have q2 : dm.ncols = numColumns al.data.length (AnalysisWindow.mk' (F := F) ref.sampleRate 0.25 0.08).size
            (AnalysisWindow.mk' (F := F) ref.sampleRate 0.25 0.08).hop := by
          rw [q2]; simp [spectroMat, scaleToMatchSpl]
        obtain ⟨_, c2⟩ := createPatches_ok h5 w1
        have hcov : ∀ k, RadiusCovers F k m.patchCreator.patchSize ref deg →
            Covers ((k * m.patchCreator.patchSize : Nat) : Int) ix dm.ncols := by
          intro k hk
          have e1 := hk.refCols
          have e2 := hk.degCols
          have e3 := hk.fits
          rw [← q1] at e1
          have e4 : dm.ncols ≤ k * m.patchCreator.patchSize := by
            rw [q2]
            refine le_trans ?_ e2
            unfold numColumns
            exact Nat.add_le_add_left (Nat.div_le_div_right (by omega)) _
          have hin : ∀ i ∈ ix, i ≤ rm.ncols := by
            intro i hi
            obtain ⟨j, hj⟩ := List.getElem?_of_mem hi
            have := (createPatches_get h5 hj).2
            omega
          generalize k * m.patchCreator.patchSize = sw at *
          exact ⟨by omega, fun i hi => by have := hin i hi; omega, fun i hi => by have := hin i hi; omega, by omega⟩
        rw [hwrap k hk, hwrap k' hk', find_covers (fun q hq => (c2 q hq).2.2) hpp (hcov k hk) (hcov k' hk')]
      rw [hcs]
      cases calculateSimilarity p m.numBands m.filterBank ref al (AnalysisWindow.mk' ref.sampleRate 0.25 0.08) m.patchCreator m.mapper k' <;> rfl

/-- A recording of up to 15 seconds at 8000 Hz or more. -/
structure Short (s : AudioSignal F) : Prop where
  rate : 8000 ≤ s.sampleRate
  rate32 : s.sampleRate < 4294967296
  length : s.data.length ≤ 15 * s.sampleRate

open Ieee in
theorem Short.covers [Ieee F] {ref deg : AudioSignal F} (hr : Short ref) (hd : Short deg) (hsr : ref.sampleRate = deg.sampleRate) {k pp : Nat}
    (hk : 60 ≤ k) (hp : pp = 20 ∨ pp = 30) (hk2 : k ≤ 35000000) : RadiusCovers F k pp ref deg := by
  obtain ⟨f1, f2, f3⟩ := ieee_window_facts (F := F) (sr := ref.sampleRate) (by have := hr.rate; omega) hr.rate32
  have h1 := hr.rate
  have h2 := hr.length
  have h3 := hd.length
  have hkp : 1200 ≤ k * pp := by rcases hp with rfl | rfl <;> omega
  have hkp2 : 2 * (k * pp) ≤ 2147483647 := by rcases hp with rfl | rfl <;> omega
  have hcols : ∀ n, 2 * n ≤ 45 * ref.sampleRate → numColumns n (windowSamples ref.sampleRate) (windowSamples ref.sampleRate / 4) ≤ 1200 := by
    intro n hn
    unfold numColumns
    have : (n - windowSamples ref.sampleRate) / (windowSamples ref.sampleRate / 4) < 1200 := by
      rw [Nat.div_lt_iff_lt_mul (by omega)]
      unfold windowSamples
      omega
    omega
  refine ⟨?_, ?_, hkp2⟩
  · rw [f1, f2]; exact (hcols _ (by omega)).trans hkp
  · rw [f1, f2]; exact (hcols _ (by omega)).trans hkp

omit [RustFft F] in
/-- Managers constructed with different radii differ in the radius only. -/
theorem new_radius {world : World F} {nb k k' : Nat} {v : Variant} {m m' : Manager F} (hm : Manager.new world nb v k = .ok m)
    (hm' : Manager.new world nb v k' = .ok m') : m = { m with searchWindow := k } ∧ m' = { m with searchWindow := k' } := by
  cases v with
  | wideband u => cases hm; cases hm'; exact ⟨rfl, rfl⟩
  | fullband path =>
    unfold Manager.new at hm hm'
    dsimp only at hm hm'
    obtain ⟨x, h1, hm⟩ := bind_ok hm
    obtain ⟨x', h1', hm'⟩ := bind_ok hm'
    rw [h1] at h1'
    cases h1'; cases hm; cases hm'
    exact ⟨rfl, rfl⟩

open Ieee in
/-- C80, the default radius: for recordings of up to 15 s any search radius from 60 (the default) to 35 million gives the same outcome of a
comparison, in either mode and after any history. -/
theorem C80_default_radius [Ieee F] {p : Profile} {world : World F} {nb k : Nat} {v : Variant} {m₀ m m₀' m' : Manager F}
    (hm : Manager.new world nb v 60 = .ok m₀) (ha : After p m₀ m) (hm' : Manager.new world nb v k = .ok m₀') (ha' : After p m₀' m')
    (hk : 60 ≤ k) (hk2 : k ≤ 35000000) {ref deg : AudioSignal F} (hr : Short ref) (hd : Short deg) (hsr : ref.sampleRate = deg.sampleRate) :
    returned (m.computeResults p ref deg) = returned (m'.computeResults p ref deg) := by
  rw [C14_history_compute ha, C14_history_compute ha']
  have hpp : m₀.patchCreator.patchSize = 20 ∨ m₀.patchCreator.patchSize = 30 := by
    rw [(new_mapper hm).2.2.1]; cases v <;> simp [PatchCreator.patchSize]
  have e := new_radius hm hm'
  rw [e.2]
  conv_lhs => rw [e.1]
  exact C80_radius_irrelevant (by omega) (hr.covers hd hsr (le_refl 60) hpp (by omega)) (hr.covers hd hsr hk hpp hk2)

open Ieee in
/-- C80, the tool: if all files it can load are recordings of up to 15 s, any radius option from 60 to 35 million gives the same files,
the same console output and the same end of the program. -/
theorem C80_cli [Ieee F] {p : Profile} {world : World F} {csv : String → CsvContent} {wr : String → Bool} {a : CliArgs} {k : Nat}
    (hs : ∀ path s, loadAsMono (F := F) (world.wav path) = .ok s → Short s) (ha : a.searchWindowRadius = 60) (hk : 60 ≤ k) (hk2 : k ≤ 35000000) :
    cliMain p world csv wr { a with searchWindowRadius := k } = cliMain p world csv wr a := by
  have hfail : ∀ j e, Manager.new world a.variant.numBands a.variant k = .error e → Manager.new world a.variant.numBands a.variant j = .error e := by
    intro j e h
    cases hv : a.variant with
    | wideband u => rw [hv] at h; cases h
    | fullband path =>
      rw [hv] at h
      unfold Manager.new at h ⊢
      dsimp only at h ⊢
      cases hx : expect (world.svr path) with
      | error e' => rw [hx] at h; simpa using h
      | ok x => rw [hx] at h; cases h
  cases hp : buildFilePairPaths csv a with
  | error e =>
    have hp' : buildFilePairPaths csv { a with searchWindowRadius := k } = .error e := hp
    simp only [cliMain, cliCompute, hp, hp', error_bind]
  | ok pairs =>
    have hp' : buildFilePairPaths csv { a with searchWindowRadius := k } = .ok pairs := hp
    cases hm' : Manager.new world a.variant.numBands a.variant k with
    | error e =>
      have hm := hfail 60 e hm'
      simp only [cliMain, cliCompute, hp, hp', hm', hm, ha, ok_bind, error_bind]
    | ok m' =>
      obtain ⟨m, hm⟩ : ∃ m, Manager.new world a.variant.numBands a.variant a.searchWindowRadius = .ok m := by
        rw [ha]
        cases hv : a.variant with
        | wideband u => exact ⟨_, rfl⟩
        | fullband path =>
          rw [hv] at hm'
          unfold Manager.new at hm'
          dsimp only at hm'
          obtain ⟨x, h1, _⟩ := bind_ok hm'
          exact ⟨_, by unfold Manager.new; dsimp only; rw [h1]; rfl⟩
      have hrun : ∀ r d, returned (m.run p world r d) = returned (m'.run p world r d) := by
        intro r d
        unfold Manager.run
        cases hr : loadAsMono (F := F) (world.wav r) with
        | error e => simp only [error_bind]
        | ok ref =>
          cases hd : loadAsMono (F := F) (world.wav d) with
          | error e => simp only [ok_bind, error_bind]
          | ok deg =>
            simp only [ok_bind]
            cases hv : validateInputAudio ref deg with
            | error e => simp only [error_bind]
            | ok u =>
              simp only [ok_bind]
              rw [ha] at hm
              exact C80_default_radius hm .fresh hm' .fresh hk hk2 (hs r ref hr) (hs d deg hd) (by
                unfold validateInputAudio at hv
                by_contra hne
                simp [hne] at hv)
      have hok : ∀ (q : PathPair) r, (∃ m1, m.run p world q.reference q.degraded = .ok (m1, r)) →
          ∃ m1, m'.run p world q.reference q.degraded = .ok (m1, r) := by
        rintro q r ⟨m1, h1⟩
        have h2 := hrun q.reference q.degraded
        rw [h1] at h2
        exact dropState_eq_ok h2.symm
      have hal : ∀ pairs rs, EachAlone p world m pairs rs → EachAlone p world m' pairs rs := fun pairs rs h => h.imp hok
      rcases C15_cases p world m pairs with ⟨rs, hr⟩ | ⟨pre, q, post, rs, e, h1, h2, h3⟩
      · rw [(C15_batch_ok hp hm hr).2, (C15_batch_ok (a := { a with searchWindowRadius := k }) hp' hm' (hal _ _ hr)).2]
        rfl
      · have h4 : m'.run p world q.reference q.degraded = .error e := by
          have h5 := hrun q.reference q.degraded
          rw [h3] at h5
          cases h6 : m'.run p world q.reference q.degraded with
          | ok x => rw [h6] at h5; cases h5
          | error e' => rw [h6] at h5; cases h5; rfl
        rw [C15_batch_fail (h1 ▸ hp) hm h2 h3, C15_batch_fail (a := { a with searchWindowRadius := k }) (h1 ▸ hp') hm' (hal _ _ h2) h4]

/-- The hypotheses of `C80_radius_irrelevant` and `C80_default_radius` in double precision: two recordings of 2.5 s and 2.6 s at 16 kHz, with radii 60 and 1000. -/
example : Short (onset B64 0 40000) ∧ Short (onset B64 1000 41000) ∧
    RadiusCovers B64 60 20 (onset B64 0 40000) (onset B64 1000 41000) ∧ RadiusCovers B64 1000 20 (onset B64 0 40000) (onset B64 1000 41000) := by
  have h1 : Short (onset B64 0 40000) := ⟨by decide, by decide, by rw [onset_length]; decide⟩
  have h2 : Short (onset B64 1000 41000) := ⟨by decide, by decide, by rw [onset_length]; decide⟩
  exact ⟨h1, h2, h1.covers h2 rfl le_rfl (.inl rfl) (by norm_num), h1.covers h2 rfl (by norm_num) (.inl rfl) (by norm_num)⟩

/-- The hypothesis of `C80_cli` on the files: a world with one short file. -/
example : ∃ world : World B64, (∃ s, loadAsMono (F := B64) (world.wav "a.wav") = .ok s ∧ s.data.length = 16000) ∧
    ∀ path s, loadAsMono (F := B64) (world.wav path) = .ok s → Short s := by
  obtain ⟨data, h1, h2, _⟩ := C18_downmix (F := B64) 1 16000 16000 (List.replicate 16000 20000) (by norm_num)
    (fun x hx => by rw [List.eq_of_mem_replicate hx]; exact ⟨by norm_num, by norm_num⟩) (by rw [List.length_replicate, Nat.mul_one])
  refine ⟨⟨fun path => if path = "a.wav" then .wav 1 16000 16 (some (List.replicate 16000 20000)) else .unreadable, fun _ => none⟩, ⟨_, h1, h2⟩, ?_⟩
  intro path s hs
  dsimp only at hs
  split at hs
  · rw [h1] at hs
    cases hs
    exact ⟨by norm_num, by norm_num, by rw [h2]; norm_num⟩
  · cases hs

end Visqol
