import Verif.Props.Builds
import Verif.Props.TimesRounded
import Verif.Props.Self
import Verif.Lemmas.IeeeLag
import Verif.Props.Options
import Verif.Props.QualityRounded
import Verif.Props.AggregateRounded

/-! # What a release build returns, a debug build returns too

The converse of `Builds`: for recordings of ordinary size no overflow that a debug build stops at can go unnoticed in a
release build that returns a result. -/

namespace Visqol
open Ieee

/-- Whatever `b` returns, `a` returns too. -/
def Follows {α : Type} (a b : M α) : Prop := ∀ x, b = .ok x → a = .ok x

namespace Follows

theorem same {α : Type} (a : M α) : Follows a a := fun _ h => h

theorem of_eq {α : Type} {a b : M α} (h : a = b) : Follows a b := fun _ hb => h.trans hb

theorem bind {α β : Type} {a b : M α} {f g : α → M β} (h : Follows a b) (hf : ∀ x, b = .ok x → Follows (f x) (g x)) :
    Follows (a >>= f) (b >>= g) := by
  intro y hy
  obtain ⟨x, hx, hy⟩ := bind_ok hy
  rw [h x hx]
  exact hf x hx y hy

theorem mapE {α β : Type} {f g : α → M β} : ∀ {l : List α}, (∀ x ∈ l, Follows (f x) (g x)) →
    Follows (Visqol.mapE f l) (Visqol.mapE g l)
  | [], _ => same _
  | a :: l, h => bind (h a (by simp)) fun _ _ => bind (mapE fun x hx => h x (by simp [hx])) fun _ _ => same _

theorem foldE {α σ : Type} {f g : σ → α → M σ} : ∀ {l : List α} (s : σ), (∀ s, ∀ x ∈ l, Follows (f s x) (g s x)) →
    Follows (Visqol.foldE f s l) (Visqol.foldE g s l)
  | [], _, _ => same _
  | a :: l, s, h => bind (h s a (by simp)) fun s' _ => foldE s' fun s x hx => h s x (by simp [hx])

theorem slideLoop {σ : Type} {hi : Int} {ncols : Nat} {f g : σ → Nat → M σ} (h : ∀ s x, Follows (f s x) (g s x))
    (o : Int) (s : σ) : Follows (Visqol.slideLoop hi ncols f o s) (Visqol.slideLoop hi ncols g o s) := by
  rw [Visqol.slideLoop, Visqol.slideLoop.eq_def hi ncols g o s]
  by_cases h1 : o ≤ hi
  · rw [if_pos h1, if_pos h1]
    by_cases h2 : o < 0
    · rw [if_pos h2, if_pos h2]
      exact slideLoop h 0 s
    · rw [if_neg h2, if_neg h2]
      by_cases h3 : o = (ncols : Int)
      · rw [if_pos h3, if_pos h3]; exact same _
      · rw [if_neg h3, if_neg h3]
        exact bind (h s _) fun s' _ => slideLoop h (o + 1) s'
  · rw [if_neg h1, if_neg h1]; exact same _
termination_by (hi + 1 - o).toNat
decreasing_by all_goals omega

end Follows

section
variable {F : Type} [Flt F] {p q : Profile}

theorem measure_same {a b : Mat F} (wa : a.WF) (wb : b.WF) :
    Follows (measurePatchSimilarity p a b) (measurePatchSimilarity q a b) := by
  intro r h
  obtain ⟨hs, h1, h2⟩ := measure_ok_inv h
  rw [measurePatchSimilarity_eq q a b wa wb hs h1 h2] at h
  rw [measurePatchSimilarity_eq p a b wa wb hs h1 h2]
  exact h

theorem window_same {i : Nat} {sw : Int} (h0 : 0 ≤ sw) (h : (i : Int) + sw ≤ 2147483647) :
    i32 p (wrapI32 i - sw) = i32 q (wrapI32 i - sw) ∧ i32 p (wrapI32 i + sw) = i32 q (wrapI32 i + sw) := by
  rw [(i32_window (p := p) h0 h).1, (i32_window (p := p) h0 h).2, (i32_window (p := q) h0 h).1, (i32_window (p := q) h0 h).2]
  exact ⟨rfl, rfl⟩

theorem dpCell_same {prev : Option (Nat × List F)} {sw : Int} (h0 : 0 ≤ sw)
    (h : ∀ i row, prev = some (i, row) → (i : Int) + sw ≤ 2147483647) (o : Nat) (s : F) :
    dpCell p prev sw o s = dpCell q prev sw o s := by
  unfold dpCell
  cases prev with
  | none => rfl
  | some x =>
    obtain ⟨i, row⟩ := x
    dsimp only
    rw [(window_same (p := p) (q := q) h0 (h i row rfl)).1]

theorem findOne_same {nc : Nat} {rp : Mat F} {dps : List (Mat F)} {prev : Option (Nat × List F)} {i : Nat} {sw : Int}
    (h0 : 0 ≤ sw) (h : ∀ i row, prev = some (i, row) → (i : Int) + sw ≤ 2147483647) (hi : (i : Int) + sw ≤ 2147483647)
    (wr : rp.WF) (wd : ∀ d ∈ dps, d.WF) :
    Follows (findMostOptimalDegPatch p nc rp dps prev i sw) (findMostOptimalDegPatch q nc rp dps prev i sw) := by
  unfold findMostOptimalDegPatch
  rw [(window_same (p := p) (q := q) h0 hi).1, (window_same (p := p) (q := q) h0 hi).2]
  refine Follows.bind (Follows.same _) fun lo _ => ?_
  refine Follows.bind (Follows.same _) fun hi _ => ?_
  refine Follows.slideLoop (fun st o => ?_) _ _
  refine Follows.bind (Follows.same _) fun d hd => ?_
  refine Follows.bind (measure_same wr (wd d (List.mem_of_getElem? (idx_ok hd)))) fun s _ => ?_
  rw [dpCell_same (p := p) (q := q) h0 h]
  exact Follows.same _

theorem dpRows_same {nc : Nat} {dps : List (Mat F)} {sw : Int} (h0 : 0 ≤ sw) (wd : ∀ d ∈ dps, d.WF) :
    ∀ (l : List (Mat F × Nat)) (prev : Option (Nat × List F)), (∀ x ∈ l, x.1.WF ∧ (x.2 : Int) + sw ≤ 2147483647) →
      (∀ i row, prev = some (i, row) → (i : Int) + sw ≤ 2147483647) →
      Follows (dpRows p nc dps sw prev l) (dpRows q nc dps sw prev l)
  | [], _, _, _ => Follows.same _
  | (patch, i) :: rest, prev, hl, hp => by
      rw [dpRows, dpRows]
      have hi := hl (patch, i) (by simp)
      refine Follows.bind (findOne_same h0 hp hi.2 hi.1 wd) fun r _ => ?_
      refine Follows.bind (dpRows_same h0 wd rest (some (i, r.1)) (fun x hx => hl x (by simp [hx])) ?_) fun _ _ => Follows.same _
      intro j row h
      cases h
      exact hi.2

theorem backtrack_same {deg : Mat F} (wd : deg.WF) (fd pd : F) : ∀ (l : List (Mat F × Nat × List Nat)) (o : Nat),
    (∀ x ∈ l, x.1.WF) → Follows (backtrack p deg fd pd l o) (backtrack q deg fd pd l o)
  | [], _, _ => Follows.same _
  | (patch, i, bt) :: rest, o, hl => by
      rw [backtrack, backtrack]
      refine Follows.bind ?_ fun x _ => ?_
      · unfold backtraceStep
        refine Follows.bind (Follows.same _) fun d hd => ?_
        refine Follows.bind (measure_same (hl (patch, i, bt) (by simp)) (buildDegradedPatch_ok hd wd).1) fun _ _ => ?_
        exact Follows.same _
      · refine Follows.bind (backtrack_same wd fd pd rest _ fun x hx => hl x (by simp [hx])) fun _ _ => Follows.same _

theorem calcMax_same {ix : List Nat} {nd pp : Nat} (hsorted : ix.Pairwise (· < ·)) (hb : nd + pp < usizeMod) :
    Follows (calcMaxNumPatches .checked ix nd pp) (calcMaxNumPatches .wrapping ix nd pp) := by
  intro n h
  rcases agree_calcMax ix nd pp with hc | hc
  · unfold calcMaxNumPatches at h hc
    by_cases h0 : ix.length = 0
    · rw [if_pos h0] at hc; cases hc
    · rw [if_neg h0] at h hc
      obtain ⟨h1, h2, ⟨i, hi, hi1, hi2⟩, _⟩ := calcMaxLoop_spec hb h le_rfl
      obtain ⟨n', hn'⟩ := calcMaxLoop_total (p := .checked) hsorted le_rfl ⟨n - 1, i, by omega, hi, hi1, hi2⟩
      rw [hn'] at hc
      cases hc
  · rw [hc]; exact h

theorem find_same {rps : List (Mat F)} {ix : List Nat} {deg : Mat F} {fd : F} {radius pp : Nat}
    (hl : rps.length = ix.length) (hr : ∀ r ∈ rps, r.WF ∧ r.ncols = pp) (wd : deg.WF) (hsorted : ix.Pairwise (· < ·))
    (hi : ∀ i ∈ ix, i + radius * pp ≤ 2147483646) (hrad : radius ≤ 2147483647) (hpp : pp ≤ 2147483647) (hnc : deg.ncols + pp < usizeMod) :
    Follows (findMostOptimalDegPatches .checked rps ix deg fd (wrapI32 radius))
      (findMostOptimalDegPatches .wrapping rps ix deg fd (wrapI32 radius)) := by
  unfold findMostOptimalDegPatches
  refine Follows.bind (Follows.same _) fun first hf => ?_
  have hf := List.mem_of_getElem? (idx_ok hf)
  have hfp := (hr first hf).2
  have hix : ix ≠ [] := by
    intro h
    rw [h] at hl
    rw [List.length_eq_zero_iff.mp hl] at hf
    cases hf
  obtain ⟨i0, hi0⟩ := List.exists_mem_of_ne_nil ix hix
  have hi0 := hi i0 hi0
  dsimp only
  rw [hfp, wrapI32_of_mem (z := (radius : Int)) (by omega) (by omega), wrapI32_of_mem (z := (pp : Int)) (by omega) (by omega)]
  have hswb : (radius : Int) * pp = ((radius * pp : Nat) : Int) := by push_cast; ring
  rw [hswb, i32_of_mem (by omega) (by omega), i32_of_mem (by omega) (by omega)]
  refine Follows.bind (Follows.same _) fun sw hsw => ?_
  cases hsw
  refine Follows.bind (calcMax_same hsorted hnc) fun n hn => ?_
  by_cases hn0 : n = 0
  · rw [if_pos hn0, if_pos hn0]; exact Follows.same _
  rw [if_neg hn0, if_neg hn0]
  refine Follows.bind (Follows.same _) fun dps hdps => ?_
  refine Follows.bind (dpRows_same (by omega) ?_ _ none ?_ ?_) fun rows _ => ?_
  · intro d hd
    obtain ⟨o, _, ho⟩ := mapE_ok_mem hdps hd
    exact (buildDegradedPatch_ok ho wd).1
  · intro x hx
    have h1 := List.of_mem_zip hx
    have := hi _ h1.2
    exact ⟨(hr _ h1.1).1, by omega⟩
  · intro i row h; cases h
  refine Follows.bind (Follows.same _) fun li hli => ?_
  have hli := hi _ (List.mem_of_getElem? (idx_ok hli))
  rw [(window_same (p := .checked) (q := .wrapping) (i := li) (sw := ((radius * pp : Nat) : Int)) (by omega) (by omega)).1]
  refine Follows.bind (Follows.same _) fun lower _ => ?_
  have hu : i32ToUsize ((radius * pp : Nat) : Int) = radius * pp := by
    unfold i32ToUsize; rw [if_pos (by omega)]; rfl
  have hmod : (2147483648 : Nat) < usizeMod := by decide
  rw [hu, uadd_of_lt (by omega), uadd_of_lt (by omega)]
  refine Follows.bind (Follows.same _) fun up hup => ?_
  cases hup
  rw [uadd_of_lt (by omega), uadd_of_lt (by omega)]
  refine Follows.bind (Follows.same _) fun up hup => ?_
  refine Follows.bind (Follows.same _) fun lr _ => ?_
  refine Follows.bind (Follows.same _) fun best _ => ?_
  refine backtrack_same wd _ _ _ _ fun x hx => ?_
  exact (hr _ (List.of_mem_zip (List.mem_of_mem_take (List.mem_reverse.mp hx))).1).1

end

/-- The size of the transform of the cross-correlation: a power of two that holds both signals (up to 2^32 samples). -/
def GoodExponents (F : Type) [Flt F] : Prop :=
  ∀ n : Nat, 1 ≤ n → n ≤ 2 ^ 32 → ∃ e : Nat, frexpExp (Flt.ofNat (n * 2 - 1) : F) = e ∧ e ≤ 34 ∧ n ≤ 2 ^ e

section
variable {F : Type} [Flt F] [RustFft F] {p q : Profile}

omit [RustFft F] in
theorem fftNew_same {n : Nat} (h1 : 1 ≤ n) (h2 : n ≤ 2 ^ 63) : FftManager.new p n = FftManager.new q n := by
  unfold FftManager.new
  rw [nextPowTwo_eq p h1 h2, nextPowTwo_eq q h1 h2]

theorem env_same {s : List F} (h2 : s.length ≤ 2 ^ 63) : calculateUpperEnv p s = calculateUpperEnv q s := by
  by_cases hs : s = []
  · subst hs; rw [calculateUpperEnv_nil, calculateUpperEnv_nil]
  · have hl : 1 ≤ s.length := List.length_pos_iff.mpr hs
    unfold calculateUpperEnv meanOpt
    rw [if_neg hs]
    dsimp only
    unfold calculateHilbert
    rw [List.length_map, fftNew_same (p := p) (q := q) hl h2]

theorem inverse_same (hexp : GoodExponents F) {s1 s2 : List F} (h1 : 1 ≤ max s1.length s2.length)
    (h2 : max s1.length s2.length ≤ 2 ^ 32) :
    inverseFftPointwiseProduct p s1 s2 = inverseFftPointwiseProduct q s1 s2 ∧
      ∀ v, inverseFftPointwiseProduct p s1 s2 = .ok v → max s1.length s2.length ≤ v.length := by
  unfold inverseFftPointwiseProduct
  simp only [resize_length]
  generalize max s1.length s2.length = N at *
  obtain ⟨e, he, he34, hNe⟩ := hexp N h1 h2
  rw [usub_of_le (by omega), usub_of_le (by omega)]
  simp only [ok_bind]
  rw [he]
  have hp : ∀ r, pow2 r (e : Int) = .ok (2 ^ e) := fun r => by
    unfold pow2; rw [if_pos (by omega)]; rfl
  rw [hp, hp]
  simp only [ok_bind]
  have he0 : 1 ≤ 2 ^ e := Nat.one_le_two_pow
  have he1 : 2 ^ e ≤ 2 ^ 63 := Nat.pow_le_pow_right (by norm_num) (by omega)
  rw [fftNew_same (p := q) (q := p) he0 he1]
  obtain ⟨m, hm, hsp, hle, h32⟩ := fftManager_new (p := p) (n := 2 ^ e) he0 he1
  rw [hm]
  simp only [ok_bind]
  unfold fftPointwiseProduct forward1dFromPoints
  simp only [resize_length]
  rw [usub_of_le hNe, usub_of_le hNe]
  simp only [ok_bind]
  refine ⟨trivial, fun v hv => ?_⟩
  obtain ⟨t, ht, htl⟩ := inverse1d_of_length (m := m) (freq := List.zipWith Cpx.mul
    (forward1d m (resize s1 N 0.0 ++ List.replicate (2 ^ e - N) 0.0))
    ((forward1d m (resize s2 N 0.0 ++ List.replicate (2 ^ e - N) 0.0)).map Cpx.conj)) (by simp [forward1d_length]) (by omega)
  rw [ht] at hv
  cases hv
  omega

theorem lag_same (hexp : GoodExponents F) {s1 s2 : List F} (h1 : 1 ≤ max s1.length s2.length)
    (h2 : max s1.length s2.length ≤ 2 ^ 32) : calculateBestLag p s1 s2 = calculateBestLag q s1 s2 := by
  obtain ⟨e, hv⟩ := inverse_same (p := p) (q := q) hexp h1 h2
  unfold calculateBestLag
  rw [usub_of_le h1, usub_of_le h1, ← e]
  simp only [ok_bind]
  cases h : inverseFftPointwiseProduct p s1 s2 with
  | error e => rfl
  | ok v =>
    have := hv v h
    simp only [ok_bind]
    rw [usub_of_le (by omega), usub_of_le (by omega)]

/-- Alignment does not depend on the build. -/
theorem align_same (hexp : GoodExponents F) {ref deg : AudioSignal F} (h1 : ref.data.length ≤ 2 ^ 32) (h2 : deg.data.length ≤ 2 ^ 32) :
    globallyAlign p ref deg = globallyAlign q ref deg := by
  unfold globallyAlign
  have k1 : ref.data.length ≤ 2 ^ 63 := h1.trans (by norm_num)
  have k2 : deg.data.length ≤ 2 ^ 63 := h2.trans (by norm_num)
  rw [env_same (p := p) (q := q) k1, env_same (p := p) (q := q) k2]
  by_cases hr : ref.data = []
  · rw [hr, calculateUpperEnv_nil]; rfl
  obtain ⟨e1, he1, hl1⟩ := calculateUpperEnv_total (p := q) hr k1
  rw [he1]
  simp only [ok_bind]
  by_cases hd : deg.data = []
  · rw [hd, calculateUpperEnv_nil]; rfl
  obtain ⟨e2, he2, hl2⟩ := calculateUpperEnv_total (p := q) hd k2
  rw [he2]
  simp only [ok_bind]
  have := List.length_pos_iff.mpr hr
  rw [lag_same (p := p) (q := q) hexp (by omega) (by omega)]

theorem truncate_same (hexp : GoodExponents F) {ref deg : AudioSignal F} (h1 : ref.data.length ≤ 2 ^ 32) (h2 : deg.data.length ≤ 2 ^ 32) :
    alignAndTruncate p ref deg = alignAndTruncate q ref deg := by
  unfold alignAndTruncate
  rw [align_same (p := p) (q := q) hexp h1 h2]

/-- The pieces of both signals that fine alignment of `r` looks at are not too long (or it is not attempted). -/
def ShortPieces (ref deg : AudioSignal F) (r : PatchSim F) : Prop :=
  (Flt.eq r.degStart r.degEnd && Flt.eq r.degStart 0.0) = true ∨
    ((∀ x, sliceSignal ref r.refStart r.refEnd = .ok x → x.data.length ≤ 2 ^ 32) ∧
      ∀ x, sliceSignal deg r.degStart r.degEnd = .ok x → x.data.length ≤ 2 ^ 32)

theorem fineOne_same (hexp : GoodExponents F) {nb : Nat} {ref deg : AudioSignal F} {w : AnalysisWindow F} {fb : FilterBank F} {r : PatchSim F}
    (h : ShortPieces ref deg r) : Follows (finelyAlignPatch p nb ref deg w fb r) (finelyAlignPatch q nb ref deg w fb r) := by
  unfold finelyAlignPatch
  split
  · exact Follows.same _
  · rename_i hne
    obtain ⟨h1, h2⟩ := h.resolve_left hne
    refine Follows.bind (Follows.same _) fun ra hra => ?_
    refine Follows.bind (Follows.same _) fun da hda => ?_
    rw [truncate_same (p := p) (q := q) hexp (h1 ra hra) (h2 da hda)]
    refine Follows.bind (Follows.same _) fun o ho => ?_
    cases o with
    | none => exact Follows.same _
    | some t =>
      obtain ⟨raa, daa, lag⟩ := t
      dsimp only
      refine Follows.bind (Follows.same _) fun x hx => ?_
      obtain ⟨fb1, rs⟩ := x
      dsimp only
      refine Follows.bind (Follows.same _) fun x hx2 => ?_
      obtain ⟨fb2, ds⟩ := x
      dsimp only
      refine Follows.bind (Follows.same _) fun x hx3 => ?_
      obtain ⟨ma, mb⟩ := x
      dsimp only
      obtain ⟨_, _, _, e1, _⟩ := buildSpectrogram_ok hx
      obtain ⟨_, _, _, e2, _⟩ := buildSpectrogram_ok hx2
      rw [e1, e2] at hx3
      obtain ⟨s1, s2, _⟩ := prepare_shape hx3 (spectroMat_wf _ _ _ _) (spectroMat_wf _ _ _ _)
      exact Follows.bind (measure_same s1 s2) fun _ _ => Follows.same _

theorem fine_same (hexp : GoodExponents F) {nb : Nat} {ref deg : AudioSignal F} {w : AnalysisWindow F} : ∀ (l : List (PatchSim F)) (fb : FilterBank F),
    (∀ r ∈ l, ShortPieces ref deg r) → Follows (finelyAlign p nb ref deg w fb l) (finelyAlign q nb ref deg w fb l)
  | [], _, _ => Follows.same _
  | r :: rs, fb, h => by
    rw [finelyAlign, finelyAlign]
    refine Follows.bind (fineOne_same hexp (h r (by simp))) fun x _ => ?_
    exact Follows.bind (fine_same hexp rs _ fun r hr => h r (by simp [hr])) fun _ _ => Follows.same _

omit [RustFft F] in
theorem stds_same {ps : List (PatchSim F)} {fd : F}
    (h : ∀ r ∈ ps, 1 ≤ Flt.toUsize (Flt.ceil ((r.refEnd - r.refStart) / fd))) :
    Follows (perPatchStdDevs p ps fd) (perPatchStdDevs q ps fd) := by
  unfold perPatchStdDevs
  refine Follows.bind (Follows.same _) fun _ _ => ?_
  refine Follows.bind (Follows.same _) fun _ _ => ?_
  refine Follows.bind (Follows.foldE _ fun st r hr => ?_) fun _ _ => Follows.same _
  unfold stdContribution
  dsimp only
  rw [usub_of_le (h r hr), usub_of_le (h r hr)]
  exact Follows.same _

omit [RustFft F] in
theorem indices_same {pc : PatchCreator} (hpc : pc = .vad 30 ∨ pc = .image 20) {nc : Nat} {ref : AudioSignal F} {w : AnalysisWindow F}
    (h : 14 ≤ nc) : pc.indices p nc ref w = pc.indices q nc ref w := by
  rcases hpc with rfl | rfl
  · show vadPatchIndices p 30 nc ref w = vadPatchIndices q 30 nc ref w
    unfold vadPatchIndices
    cases normalizeSignal ref.data with
    | error e => rfl
    | ok n =>
      simp only [ok_bind]
      rw [usub_of_le (by decide), usub_of_le (by decide)]
      simp only [ok_bind]
      rw [usub_of_le (by omega), usub_of_le (by omega)]
  · rfl

/-- A comparison that succeeds when wrapping also succeeds when checked, given that the pieces of fine alignment are short and that
every reported patch lasts at least one frame. -/
theorem similarity_same (hexp : GoodExponents F) {nb : Nat} {fb : FilterBank F} {ref deg : AudioSignal F} {w : AnalysisWindow F}
    {pc : PatchCreator} {mapper : QualityMapper F} {sw : Nat} (hpc : pc = .vad 30 ∨ pc = .image 20) (hrad : sw ≤ 2 ^ 25)
    (hlen : ref.data.length ≤ 2 ^ 30) (hdlen : deg.data.length ≤ 2 ^ 32)
    (hpieces : ∀ res (st : Stages .wrapping nb fb ref deg w pc mapper sw res), ∀ r ∈ st.coarse, ShortPieces ref (scaleToMatchSpl ref deg) r)
    (hframes : ∀ fb' res, calculateSimilarity .wrapping nb fb ref deg w pc mapper sw = .ok (fb', res) → ∀ r ∈ res.patchSims, 1 ≤ Flt.toUsize (Flt.ceil ((r.refEnd - r.refStart) / (Flt.ofNat w.size * w.overlap / Flt.ofNat ref.sampleRate)))) :
    Follows (calculateSimilarity .checked nb fb ref deg w pc mapper sw) (calculateSimilarity .wrapping nb fb ref deg w pc mapper sw) := by
  intro x hx
  obtain ⟨fb', res⟩ := x
  have hx' := hx
  unfold calculateSimilarity at hx ⊢
  dsimp only at hx ⊢
  obtain ⟨⟨fb1, rs⟩, h1, h⟩ := bind_ok hx
  obtain ⟨⟨fb2, ds⟩, h2, h⟩ := bind_ok h
  obtain ⟨⟨rm, dm⟩, h3, h⟩ := bind_ok h
  obtain ⟨ix, h4, h⟩ := bind_ok h
  obtain ⟨ps, h5, h⟩ := bind_ok h
  obtain ⟨co, h6, h⟩ := bind_ok h
  obtain ⟨⟨fb3, fi⟩, h7, h⟩ := bind_ok h
  obtain ⟨fvn, h8, h⟩ := bind_ok h
  obtain ⟨fstd, h9, h⟩ := bind_ok h
  obtain ⟨fven, h10, h⟩ := bind_ok h
  obtain ⟨mos, h11, h⟩ := bind_ok h
  obtain ⟨vn, h12, h⟩ := bind_ok h
  dsimp only at h1 h2 h3 h4 h5 h6 h7 h8 h9 h10 h11 h12
  obtain ⟨st, e1, e2, e3, e4, e5, e6⟩ : ∃ st : Stages .wrapping nb fb ref deg w pc mapper sw res, st.refM = rm ∧ st.degM = dm ∧ st.ix = ix ∧
      st.patches = ps ∧ st.coarse = co ∧ res.patchSims = fi := by
    cases h
    obtain ⟨a1, a2, a3, a4, a5⟩ := buildSpectrogram_ok h1
    obtain ⟨b1, _, _, b4, _⟩ := buildSpectrogram_ok h2
    rw [a4, b4] at h3
    have m1 := buildSpectrogram_minFreq h1
    have m2 := buildSpectrogram_minFreq h2
    exact ⟨⟨rm, dm, ix, ps, co, fb1, fb2, _, a1, by simpa [scaleToMatchSpl] using b1, a2, a3, h3, m1, m2.trans m1, a5, h4, h5, h6, h7,
      h8, h9, h10, ⟨mos, h11, rfl⟩, expect_ok h12⟩, rfl, rfl, rfl, rfl, rfl, rfl⟩
  have hp := hpieces res st
  have hd := hframes fb' res hx'
  obtain ⟨k1, k2⟩ := st.sorted_ix hpc (by omega)
  obtain ⟨w1, w2, _, _, n1, n2⟩ := st.shapes
  rw [e1] at k2 w1 n1
  rw [e2] at w2 n2
  rw [e3] at k1
  rw [e5] at hp
  rw [e6] at hd
  have hcr := @numColumns_le ref.data.length w.size w.hop
  have hcd := @numColumns_le deg.data.length w.size w.hop
  obtain ⟨c1, c2⟩ := createPatches_ok h5 w1
  have hpp : pc.patchSize ≤ 30 := by rcases hpc with rfl | rfl <;> decide
  have hmod : (8589934592 : Nat) < usizeMod := by decide
  rw [h1, ok_bind]
  dsimp only
  rw [h2, ok_bind]
  dsimp only
  rw [h3, ok_bind]
  dsimp only
  rw [indices_same (p := .checked) (q := .wrapping) hpc (by omega), h4, ok_bind, h5, ok_bind]
  have hsw : sw * pc.patchSize ≤ 2 ^ 25 * 30 := Nat.mul_le_mul hrad hpp
  rw [find_same c1 (fun r hr => ⟨(c2 r hr).1, (c2 r hr).2.2⟩) w2 k1 (fun i hi => ?_) (by omega) (by omega) (by omega) co h6, ok_bind,
    fine_same hexp co fb2 hp _ h7, ok_bind]
  · dsimp only
    rw [h8, ok_bind, stds_same hd _ h9, ok_bind, h10, ok_bind, h11, ok_bind, h12, ok_bind]
    exact h
  · obtain ⟨k, hk⟩ := List.mem_iff_getElem?.mp hi
    have := (createPatches_get h5 hk).2
    omega

end

section
variable {F : Type} [Flt F] [Ieee F] [Libm F]

theorem goodExponents : GoodExponents F := by
  intro n h1 h2
  by_cases h : 2 ≤ n
  · obtain ⟨e, he, he34, hlt⟩ := frexpExp_bound (F := F) (L := n * 2 - 1) (by omega) (by omega)
    exact ⟨e, he, he34, by omega⟩
  · obtain rfl : n = 1 := by omega
    have hL : Is (Flt.ofNat (1 * 2 - 1) : F) 1 := by
      have := val_nat (F := F) (n := 1) (by norm_num)
      rw [Nat.cast_one] at this
      exact this
    unfold frexpExp
    rw [Is.eq val_0 hL]
    simp only [zero_ne_one, decide_false, Bool.false_eq_true, if_false]
    have ha : Is (Flt.abs (Flt.ofNat (1 * 2 - 1) : F)) 1 := by
      have := hL.abs
      rwa [abs_one] at this
    obtain ⟨y, hy, hy'⟩ := Libm.log2_acc _ _ ha le_rfl (by norm_num)
    rw [Real.logb_one, sub_zero] at hy'
    have hy1 := (abs_le.mp hy').1
    have hy2 := (abs_le.mp hy').2
    have hf1 : (-1 : ℤ) ≤ ⌊y⌋ := Int.le_floor.mpr (by push_cast; linarith)
    have hf2 : ⌊y⌋ < 1 := Int.floor_lt.mpr (by push_cast; linarith)
    have hfl : Is (Flt.floor (Flt.log2 (Flt.abs (Flt.ofNat (1 * 2 - 1) : F)))) (⌊y⌋ : ℝ) := by
      show val _ = _
      rw [Libm.floor_val _ _ hy, rnd_int F (by rw [abs_le]; constructor <;> omega)]
    have hadd : val (Flt.floor (Flt.log2 (Flt.abs (Flt.ofNat (1 * 2 - 1) : F))) + (1.0 : F)) = .fin ((⌊y⌋ + 1 : ℤ) : ℝ) := by
      rw [hfl.add val_1]
      rw [← rnd_int F (k := ⌊y⌋ + 1) (by rw [abs_of_nonneg (by omega)]; omega)]
      push_cast; rfl
    rw [Libm.toI32_val _ _ hadd, realToInt_intCast (by omega) (by omega)]
    exact ⟨(⌊y⌋ + 1).toNat, by omega, by omega, Nat.one_le_two_pow⟩

/-- A patch that lasts a fair part of a sample counts at least one frame. -/
theorem frames_pos {s e fd : F} {a b g : ℝ} (hs : Is s a) (he : Is e b) (hg : Is fd g) (h1 : 1 / 2 ^ 40 ≤ b - a) (h2 : b - a ≤ 2 ^ 40)
    (hg0 : 1 / 2 ^ 40 ≤ g) (hg1 : g ≤ 2 ^ 40) (h3 : b - a ≤ 64 * g) :
    (1 ≤ Flt.toUsize (Flt.ceil ((e - s) / fd)) ∧ Flt.toUsize (Flt.ceil ((e - s) / fd)) ≤ 1024) ∧
      (3 * g ≤ b - a → 2 ≤ Flt.toUsize (Flt.ceil ((e - s) / fd))) := by
  have hba : 0 < b - a := lt_of_lt_of_le (by positivity) h1
  have hgp : 0 < g := lt_of_lt_of_le (by positivity) hg0
  obtain ⟨D, hD, eD⟩ := rnd_rel' F (x := b - a) (by rw [abs_of_pos hba]; exact h2.trans (two_pow_mono (by norm_num)))
  have hiD : Is (e - s) D := (he.sub hs).trans hD
  rw [abs_of_pos hba] at eD
  have t1 : (1 : ℝ) / 2 ^ 200 ≤ 1 / 2 ^ 45 := one_div_le_one_div_of_le (by positivity) (two_pow_mono (by norm_num))
  have t2 : (b - a) / 2 ^ 52 ≤ (b - a) / 16 := div_le_div_of_nonneg_left hba.le (by norm_num) (by norm_num)
  have t3 : (1 : ℝ) / 2 ^ 45 ≤ 1 / 2 ^ 40 / 16 := by norm_num
  have eD1 := (abs_le.mp eD).1
  have eD2 := (abs_le.mp eD).2
  have hD1 : 1 / 2 ^ 41 ≤ D := by
    have : (1 : ℝ) / 2 ^ 41 = 1 / 2 ^ 40 / 2 := by norm_num
    linarith
  have hD2 : D ≤ 2 ^ 42 := by
    have : (2 : ℝ) ^ 42 = 4 * 2 ^ 40 := by norm_num
    have : (1 : ℝ) / 2 ^ 40 / 4 ≤ 1 := by norm_num
    linarith
  have hD3 : D ≤ 2 * (b - a) := by linarith
  have hD4 : 7 / 8 * (b - a) ≤ D := by linarith
  clear eD eD1 eD2 t1 t2 t3
  have hDp : 0 < D := lt_of_lt_of_le (by positivity) hD1
  have hq1 : 1 / 2 ^ 81 ≤ D / g := by
    rw [le_div_iff₀ hgp]
    calc (1 : ℝ) / 2 ^ 81 * g ≤ 1 / 2 ^ 81 * 2 ^ 40 := by gcongr
      _ = 1 / 2 ^ 41 := by norm_num
      _ ≤ D := hD1
  have hq2 : D / g ≤ 128 := by
    rw [div_le_iff₀ hgp]
    linarith
  have hq3 : 3 * g ≤ b - a → 21 / 8 ≤ D / g := by
    intro h
    rw [le_div_iff₀ hgp]
    linarith
  have hqp := div_pos hDp hgp
  obtain ⟨Q, hQ, eQ⟩ := rnd_rel' F (x := D / g) (by rw [abs_of_pos hqp]; exact hq2.trans ((by norm_num : (128 : ℝ) ≤ 2 ^ 7).trans (two_pow_mono (by norm_num))))
  have hiQ : Is ((e - s) / fd) Q := (Is.div hiD hg hgp.ne').trans hQ
  rw [abs_of_pos hqp] at eQ
  generalize D / g = x at *
  have t1 : (1 : ℝ) / 2 ^ 200 ≤ 1 / 2 ^ 81 / 4 := by
    rw [div_div]
    exact one_div_le_one_div_of_le (by positivity) (by norm_num)
  have t2 : x / 2 ^ 52 ≤ x / 4 := div_le_div_of_nonneg_left hqp.le (by norm_num) (by norm_num)
  have t3 : (1 : ℝ) / 2 ^ 81 / 4 ≤ 1 := by norm_num
  have eQ1 := (abs_le.mp eQ).1
  have eQ2 := (abs_le.mp eQ).2
  have hQ0 : 0 < Q := by linarith
  have hQ1 : Q ≤ 1024 := by linarith
  have hQ2 : 3 * g ≤ b - a → 1 < Q := fun h => by linarith [hq3 h]
  have hc2 : 3 * g ≤ b - a → 1 < ⌈Q⌉ := fun h => Int.lt_ceil.mpr (by push_cast; exact hQ2 h)
  have hc0 : 0 < ⌈Q⌉ := Int.ceil_pos.mpr hQ0
  have hc1 : ⌈Q⌉ ≤ 1024 := Int.ceil_le.mpr (by norm_num at hQ1 ⊢; exact hQ1)
  have hv : val (Flt.ceil ((e - s) / fd)) = .fin ((⌈Q⌉.toNat : ℕ) : ℝ) := by
    rw [Libm.ceil_val _ _ hiQ, rnd_int F (by rw [abs_of_pos hc0]; exact hc1.trans (by norm_num))]
    congr 1
    have : ((⌈Q⌉.toNat : ℕ) : ℤ) = ⌈Q⌉ := Int.toNat_of_nonneg hc0.le
    exact_mod_cast this.symm
  rw [toUsize_nat (by omega) hv]
  exact ⟨by omega, fun h => by have := hc2 h; omega⟩

omit [Libm F] in
/-- The pieces that fine alignment works on, in floating point. -/
theorem pieces_short [RustFft F] {p : Profile} {nb : Nat} {fb : FilterBank F} {ref al : AudioSignal F} {pc : PatchCreator} {mapper : QualityMapper F} {sw : Nat}
    {res : SimilarityResult F} (st : Stages p nb fb ref al (AnalysisWindow.mk' ref.sampleRate 0.25 0.08) pc mapper sw res)
    (h50 : 50 ≤ ref.sampleRate) (hu32 : ref.sampleRate < 4294967296) (hsr : ref.sampleRate = al.sampleRate)
    (hpp : 0 < pc.patchSize) (hp30 : pc.patchSize ≤ 30) (hlen : ref.data.length < 2147483648) (hdlen : al.data.length < 2 ^ 32) :
    ∀ r ∈ st.coarse, ShortPieces ref (scaleToMatchSpl ref al) r := by
  intro r hr
  obtain ⟨k, hr⟩ := List.mem_iff_getElem?.mp hr
  obtain ⟨f1, f2, f3⟩ := ieee_window_facts (F := F) h50 hu32
  obtain ⟨w1, w2, _, _, h5, h6⟩ := st.shapes
  obtain ⟨c1, c2⟩ := createPatches_ok st.created w1
  rw [f1, f2] at h5 h6
  have hcr := @numColumns_le ref.data.length (windowSamples ref.sampleRate) (windowSamples ref.sampleRate / 4)
  have hcd := @numColumns_le al.data.length (windowSamples ref.sampleRate) (windowSamples ref.sampleRate / 4)
  obtain ⟨e1, ⟨i, hi, e⟩, e3⟩ := C52_coarse_times st.found c1 (fun q hq => (c2 q hq).2.2) w2 (lt_usizeMod (by omega)) k r hr
  rcases e3 with e3 | ⟨⟨o, ho, e4⟩, e5⟩
  · left
    rw [e3.start, e3.stop, Is.eq (val_0 (F := F)) (val_0 (F := F))]
    simp
  right
  obtain ⟨g1, g2⟩ := createPatches_get st.created hi
  have hi' : i < st.refM.ncols := by omega
  rw [h5] at hi'
  rw [h6] at ho
  have hW2 : windowSamples ref.sampleRate ≤ 2 ^ 30 := by unfold windowSamples; omega
  have hbi := column_bound hu32 f3 hi' (by omega)
  have hbo := column_bound hu32 f3 ho (by omega)
  have hbp : pc.patchSize * windowSamples ref.sampleRate ≤ 2 ^ 33 + 2 ^ 31 := by
    have h1 : windowSamples ref.sampleRate ≤ 343597384 := by unfold windowSamples; omega
    have := Nat.mul_le_mul hp30 h1
    omega
  have hov : (AnalysisWindow.mk' (F := F) ref.sampleRate 0.25 0.08).overlap = 0.25 := rfl
  rw [f1, hov] at e e1 e4 e5
  have hs0 : (0 : ℝ) < ref.sampleRate := by
    have : 0 < ref.sampleRate := by omega
    exact_mod_cast this
  have b2 : (pc.patchSize * windowSamples ref.sampleRate : ℝ) ≤ 10737418240 := by exact_mod_cast hbp
  have piece : ∀ (s : AudioSignal F) (u v : F) (n : ℕ), s.sampleRate = ref.sampleRate → s.data.length < 2 ^ 32 →
      n * windowSamples ref.sampleRate ≤ 2 ^ 35 → u = Flt.ofNat n * (Flt.ofNat (windowSamples ref.sampleRate) * 0.25 / Flt.ofNat ref.sampleRate) →
      v = u + Flt.ofNat (windowSamples ref.sampleRate) * 0.25 / Flt.ofNat ref.sampleRate * Flt.ofNat pc.patchSize →
      ∀ x, sliceSignal s u v = .ok x → x.data.length ≤ 2 ^ 32 := by
    intro s u v n hs hl hn hu hv x hx
    obtain ⟨a, b, ha, hb, ha0, hab, ea, eb⟩ := column_times (F := F) (P := pc.patchSize) (by omega : 0 < ref.sampleRate) hu32 f3 hW2 hpp
      (hbp.trans (by norm_num)) hn
    rw [← hu] at ha hb
    rw [← hv] at hb
    have ea := abs_le.mp ea
    have eb := abs_le.mp eb
    have b1 : (n * windowSamples ref.sampleRate : ℝ) ≤ 34359738368 := by exact_mod_cast hn
    obtain ⟨l1, _, _⟩ := sliceSignal_length_ieee hx ha hb ha0 hab (by omega) (by rw [hs]; norm_num only; linarith only [eb.2, b1, b2]) (by omega)
    rw [hs, sub_mul] at l1
    have l2 : (x.data.length : ℝ) ≤ 4294967296 := by linarith only [l1, ea.1, eb.2, b2]
    have l3 : x.data.length ≤ 4294967296 := by exact_mod_cast l2
    omega
  refine ⟨piece ref _ _ i rfl (by omega) hbi e e1, piece (scaleToMatchSpl ref al) _ _ o ?_ ?_ hbo e4 e5⟩
  · show al.sampleRate = _
    omega
  · simpa [scaleToMatchSpl] using hdlen

/-- Every reported patch lasts between one and 1024 frames, at least two if patches have at least four columns. -/
theorem frames_bounds [RustFft F] {p : Profile} {m m' : Manager F} {ref deg : AudioSignal F} {res : SimilarityResult F}
    (hpp : 0 < m.patchCreator.patchSize ∧ m.patchCreator.patchSize ≤ 30)
    (h50 : 50 ≤ ref.sampleRate) (hu32 : ref.sampleRate < 4294967296) (hsr : ref.sampleRate = deg.sampleRate)
    (hlen : ref.data.length + deg.data.length ≤ 2 ^ 30) (h : m.computeResults p ref deg = .ok (m', res)) :
    ∀ r ∈ res.patchSims, 1 ≤ Flt.toUsize (Flt.ceil ((r.refEnd - r.refStart) /
      (Flt.ofNat (windowSamples ref.sampleRate) * 0.25 / Flt.ofNat ref.sampleRate : F))) ∧
      (4 ≤ m.patchCreator.patchSize → 2 ≤ Flt.toUsize (Flt.ceil ((r.refEnd - r.refStart) /
      (Flt.ofNat (windowSamples ref.sampleRate) * 0.25 / Flt.ofNat ref.sampleRate : F)))) ∧
      Flt.toUsize (Flt.ceil ((r.refEnd - r.refStart) /
      (Flt.ofNat (windowSamples ref.sampleRate) * 0.25 / Flt.ofNat ref.sampleRate : F))) ≤ 1024 := by
  obtain ⟨f1, f2, f3⟩ := ieee_window_facts (F := F) h50 hu32
  obtain ⟨al, lag, _, st, ht⟩ := C52_rounded h h50 hu32 hsr hpp.1 (by omega)
  intro r hr
  obtain ⟨k, hr⟩ := List.mem_iff_getElem?.mp hr
  obtain ⟨i, a, b, _, ha, hb, _, _, l1, l2, _⟩ := ht k r hr
  have hs0 : (0 : ℝ) < ref.sampleRate := by
    have : 0 < ref.sampleRate := by omega
    exact_mod_cast this
  have hs1 : (50 : ℝ) ≤ ref.sampleRate := by exact_mod_cast h50
  have hs2 : (ref.sampleRate : ℝ) ≤ 4294967296 := by exact_mod_cast hu32.le
  have hW2 : windowSamples ref.sampleRate ≤ 343597384 := by unfold windowSamples; omega
  have hW4 : (4 : ℝ) ≤ windowSamples ref.sampleRate := by exact_mod_cast f3
  have hW5 : (windowSamples ref.sampleRate : ℝ) ≤ 343597384 := by exact_mod_cast hW2
  have hP1 : (1 : ℝ) ≤ m.patchCreator.patchSize := by exact_mod_cast hpp.1
  have hP2 : (m.patchCreator.patchSize : ℝ) ≤ 30 := by exact_mod_cast hpp.2
  obtain ⟨⟨hx0, g, hg, eg⟩, _⟩ := frame_times (F := F) (W := windowSamples ref.sampleRate) (sr := ref.sampleRate) (o := 0) (k := 0)
    (by omega) (by omega) hu32 (by omega) (by omega) (by omega) rfl
  have hf : (windowSamples ref.sampleRate : ℝ) / ((4 * ref.sampleRate : ℕ) : ℝ) * ref.sampleRate = windowSamples ref.sampleRate / 4 := by
    push_cast
    field_simp
  generalize (windowSamples ref.sampleRate : ℝ) / ((4 * ref.sampleRate : ℕ) : ℝ) = f at hf eg hx0
  have hmin : (1 : ℝ) ≤ min (windowSamples ref.sampleRate : ℝ) (m.patchCreator.patchSize * windowSamples ref.sampleRate / 4) := by
    refine le_min (by linarith only [hW4]) ?_
    nlinarith only [hW4, hP1]
  have hmax : (m.patchCreator.patchSize * windowSamples ref.sampleRate / 4 : ℝ) ≤ 30 * (windowSamples ref.sampleRate / 4) := by
    nlinarith only [hW4, hP2]
  have hT1 : (9 / 10 : ℝ) ≤ (b - a) * ref.sampleRate := by linarith only [hmin, l1]
  have hT2 : (b - a) * ref.sampleRate ≤ 32 * (windowSamples ref.sampleRate / 4) := by linarith only [hmax, l2, hW4]
  have hT0 : 0 < b - a := by
    by_contra hn
    nlinarith only [hn, hT1, hs0]
  have hf1 : b - a ≤ 32 * f := by
    refine le_of_mul_le_mul_right ?_ hs0
    rw [mul_assoc, hf]
    exact hT2
  have q1 : (1 : ℝ) / 2 ^ 47 ≤ 1 / 2 := by norm_num
  have eg1 : 1 / 2 ^ 47 * f ≤ 1 / 2 * f := mul_le_mul_of_nonneg_right q1 hx0
  have g1 := (abs_le.mp eg).1
  have g2 := (abs_le.mp eg).2
  have hf2 : (1 : ℝ) ≤ f * 4294967296 := by nlinarith only [hf, hW4, hs2, hx0]
  have hf3 : f * 50 ≤ 85899346 := by nlinarith only [hf, hW5, hs1, hx0]
  have hT3 : (9 / 10 : ℝ) ≤ (b - a) * 4294967296 := by nlinarith only [hT1, hT0, hs2]
  have h4 : 4 ≤ m.patchCreator.patchSize → 3 * g ≤ b - a := by
    intro hP
    have hP4 : (4 : ℝ) ≤ m.patchCreator.patchSize := by exact_mod_cast hP
    rw [min_eq_left (by nlinarith only [hW4, hP4])] at l1
    refine le_of_mul_le_mul_right ?_ hs0
    have q2 : (1 : ℝ) / 2 ^ 47 * f ≤ 1 / 100 * f := mul_le_mul_of_nonneg_right (by norm_num) hx0
    have q3 : g * ref.sampleRate ≤ 101 / 100 * (f * ref.sampleRate) := by
      have : g ≤ 101 / 100 * f := by linarith only [g2, q2]
      calc g * ref.sampleRate ≤ 101 / 100 * f * ref.sampleRate := mul_le_mul_of_nonneg_right this hs0.le
        _ = _ := by ring
    rw [hf] at q3
    linarith only [q3, l1, hW4]
  have key := frames_pos ha hb hg ?_ ?_ ?_ ?_ ?_
  · exact ⟨key.1.1, fun hP => key.2 (h4 hP), key.1.2⟩
  · norm_num only
    linarith only [hT3]
  · norm_num only
    linarith only [hf1, hf3]
  · norm_num only
    linarith only [g1, eg1, hf2]
  · norm_num only
    linarith only [g2, eg1, hf3]
  · linarith only [g1, eg1, hf1, hx0]

/-- C87: the frame counts of all patches together fit into a `usize`, so that the sum in `calc_per_patch_mean_freq_band_std_devs`,
which the model takes over the natural numbers, overflows in neither build. -/
theorem C87_frame_count_fits [RustFft F] {p : Profile} {m m' : Manager F} {ref deg : AudioSignal F} {res : SimilarityResult F}
    (hpc : m.patchCreator = .vad 30 ∨ m.patchCreator = .image 20)
    (h50 : 50 ≤ ref.sampleRate) (hu32 : ref.sampleRate < 4294967296) (hsr : ref.sampleRate = deg.sampleRate)
    (hlen : ref.data.length + deg.data.length ≤ 2 ^ 30) (h : m.computeResults p ref deg = .ok (m', res)) :
    (res.patchSims.map fun r => Flt.toUsize (Flt.ceil ((r.refEnd - r.refStart) /
      (Flt.ofNat (windowSamples ref.sampleRate) * 0.25 / Flt.ofNat ref.sampleRate : F)))).sum < 2 ^ 64 := by
  have hpp : 0 < m.patchCreator.patchSize ∧ m.patchCreator.patchSize ≤ 30 := by rcases hpc with h | h <;> rw [h] <;> decide
  have hf := frames_bounds hpp h50 hu32 hsr hlen h
  obtain ⟨al, lag, _, ⟨st⟩⟩ := computeResults_stages h
  have hn := (st.patches_le hpc (by omega)).2
  have := List.sum_le_card_nsmul (res.patchSims.map fun r => Flt.toUsize (Flt.ceil ((r.refEnd - r.refStart) /
      (Flt.ofNat (windowSamples ref.sampleRate) * 0.25 / Flt.ofNat ref.sampleRate : F)))) 1024 (by
    intro x hx
    obtain ⟨r, hr, rfl⟩ := List.mem_map.mp hx
    exact (hf r hr).2.2)
  rw [List.length_map, smul_eq_mul] at this
  omega

/-- C87, the converse: for recordings of up to 2^30 samples in total and a search radius of up to 2^25 patches, a result of a
release build is also the result of a debug build. -/
theorem C87_release [RustFft F] {m m' : Manager F} {ref deg : AudioSignal F} {res : SimilarityResult F}
    (hpc : m.patchCreator = .vad 30 ∨ m.patchCreator = .image 20) (hrad : m.searchWindow ≤ 2 ^ 25)
    (h50 : 50 ≤ ref.sampleRate) (hu32 : ref.sampleRate < 4294967296) (hsr : ref.sampleRate = deg.sampleRate)
    (hlen : ref.data.length + deg.data.length ≤ 2 ^ 30) (h : m.computeResults .wrapping ref deg = .ok (m', res)) :
    m.computeResults .checked ref deg = .ok (m', res) := by
  have hpp : 0 < m.patchCreator.patchSize ∧ m.patchCreator.patchSize ≤ 30 := by rcases hpc with h | h <;> rw [h] <;> decide
  obtain ⟨f1, f2, f3⟩ := ieee_window_facts (F := F) h50 hu32
  have hframes := fun r hr => (frames_bounds hpp h50 hu32 hsr hlen h r hr).1
  unfold Manager.computeResults at h ⊢
  obtain ⟨o, h1, h⟩ := bind_ok h
  rw [align_same (p := .checked) (q := .wrapping) goodExponents (by omega) (by omega), h1, ok_bind]
  cases o with
  | none => cases h
  | some t =>
    obtain ⟨al, lag⟩ := t
    have hal := globallyAlign_length h1
    have hals := (C39_only_shifts h1).1
    dsimp only at h ⊢
    obtain ⟨⟨fb, r⟩, h2, h⟩ := bind_ok h
    cases h
    rw [similarity_same goodExponents hpc hrad (by omega) (by omega)
      (fun res st => pieces_short st h50 hu32 (by omega) hpp.1 hpp.2 (by omega) (by omega)) (fun fb' res' hres => ?_) _ h2]
    · rfl
    · rw [h2] at hres
      cases hres
      rw [f1]
      exact hframes

/-- A file of at most 2^29 frames with a rate of at least 50 Hz (the rate in a WAV header has 32 bits), or one that cannot be
loaded. -/
def Reasonable (F : Type) [Flt F] (c : WavContent) : Prop :=
  ∀ s : AudioSignal F, loadAsMono c = .ok s → 50 ≤ s.sampleRate ∧ s.sampleRate < 4294967296 ∧ s.data.length ≤ 2 ^ 29

/-- C87, the converse, for a comparison of two files by a manager that may have been used before. -/
theorem C87_release_run [RustFft F] {world : World F} {nb k : Nat} {v : Variant} {m₀ m m' : Manager F} {r d : String}
    {res : SimilarityResult F} {p : Profile} (hm : Manager.new world nb v k = .ok m₀) (ha : After p m₀ m) (hk : k ≤ 2 ^ 25)
    (hr : Reasonable F (world.wav r)) (hd : Reasonable F (world.wav d)) (h : m.run .wrapping world r d = .ok (m', res)) :
    m.run .checked world r d = .ok (m', res) := by
  obtain ⟨_, h2, h3, _⟩ := new_mapper hm
  obtain ⟨_, s2, s3, _⟩ := ha.sim
  obtain ⟨ref, deg, l1, l2, hsr, hc⟩ := run_ok h
  obtain ⟨a1, a2, a3⟩ := hr ref l1
  obtain ⟨_, _, b3⟩ := hd deg l2
  have hc' := C87_release (by rw [s3, h3]; cases v <;> simp) (by omega) a1 a2 hsr (by omega) hc
  unfold Manager.run
  rw [l1, l2, ok_bind, ok_bind]
  unfold validateInputAudio
  rw [if_neg (by simpa using hsr), ok_bind, hc']

/-- C87, the converse, for a batch. -/
theorem C87_release_batch [RustFft F] {world : World F} {nb k : Nat} {v : Variant} {m₀ : Manager F}
    (hm : Manager.new world nb v k = .ok m₀) (hk : k ≤ 2 ^ 25) : ∀ {l : List PathPair} {m : Manager F} {out : List (SimilarityResult F)},
    After .wrapping m₀ m → (∀ q ∈ l, Reasonable F (world.wav q.reference) ∧ Reasonable F (world.wav q.degraded)) →
    runBatch .wrapping world m l = .ok out → runBatch .checked world m l = .ok out
  | [], _, _, _, _, h => h
  | q :: rest, m, out, ha, hq, h => by
    unfold runBatch at h ⊢
    obtain ⟨⟨m', res⟩, h1, h⟩ := bind_ok h
    obtain ⟨rs, h2, h⟩ := bind_ok h
    obtain ⟨q1, q2⟩ := hq q List.mem_cons_self
    rw [C87_release_run hm ha hk q1 q2 h1, ok_bind]
    dsimp only at h2 h ⊢
    rw [C87_release_batch hm hk (.run ha h1) (fun q' hq' => hq q' (List.mem_cons_of_mem _ hq')) h2]
    exact h

end

section
variable {F : Type} [Flt F]

theorem bind_congr_ok {α β : Type} {a : M α} {f g : α → M β} (h : ∀ x, a = .ok x → f x = g x) : (a >>= f) = (a >>= g) := by
  cases a with
  | error e => rfl
  | ok x => exact h x rfl

theorem i32_wrapping (z : Int) : i32 .wrapping z = .ok (wrapI32 z) := by
  unfold i32
  split
  · rename_i hz
    rw [wrapI32_of_mem hz.1 hz.2]
  · rfl

theorem wraps_20 {k K : Nat} (hK : K = k + 2 ^ 30) : i32 .wrapping (wrapI32 (K : Int) * wrapI32 ((20 : ℕ) : Int)) =
    i32 .wrapping (wrapI32 (k : Int) * wrapI32 ((20 : ℕ) : Int)) := by
  rw [i32_wrapping, i32_wrapping]
  refine congrArg Except.ok ?_
  unfold wrapI32
  rw [Int.mul_bmod, Int.bmod_bmod, ← Int.mul_bmod, Int.mul_bmod (Int.bmod (k : Int) 4294967296), Int.bmod_bmod, ← Int.mul_bmod]
  have h20 : Int.bmod ((20 : ℕ) : Int) 4294967296 = 20 := by decide
  rw [h20]
  have : (K : Int) * 20 = (k : Int) * 20 + (4294967296 : ℕ) * 5 := by omega
  rw [this, Int.add_mul_bmod_self_left]

theorem find_wraps (ps : List (Mat F)) (ix : List Nat) (deg : Mat F) (fd : F) {k K : Nat} (hK : K = k + 2 ^ 30) (h : ∀ q ∈ ps, q.ncols = 20) :
    findMostOptimalDegPatches .wrapping ps ix deg fd (wrapI32 (K : Int)) =
      findMostOptimalDegPatches .wrapping ps ix deg fd (wrapI32 (k : Int)) := by
  unfold findMostOptimalDegPatches
  refine bind_congr_ok fun q hq => ?_
  dsimp only
  rw [h q (List.mem_of_getElem? (idx_ok hq)), wraps_20 hK]

/-- C87: the bound on the radius is needed.  In fullband mode with a radius of `k + 2^30` the release build computes exactly
what it computes with a radius of `k`; the debug build never returns a result. -/
theorem C87_radius_wraps [RustFft F] {m m' : Manager F} (hpc : m.patchCreator = .image 20) (hk : m.searchWindow < 2 ^ 30)
    (hm' : m' = { m with searchWindow := m.searchWindow + 2 ^ 30 }) (ref deg : AudioSignal F) :
    returned (m'.computeResults .wrapping ref deg) = returned (m.computeResults .wrapping ref deg) ∧
      ∀ x, m'.computeResults .checked ref deg ≠ .ok x := by
  have hK : m'.searchWindow = m.searchWindow + 2 ^ 30 := by rw [hm']
  have hpc' : m'.patchCreator = .image 20 := by rw [hm']; exact hpc
  have e1 : m'.numBands = m.numBands := by rw [hm']
  have e2 : m'.filterBank = m.filterBank := by rw [hm']
  have e3 : m'.mapper = m.mapper := by rw [hm']
  clear hm'
  constructor
  · unfold Manager.computeResults
    cases globallyAlign .wrapping ref deg with
    | error e => rfl
    | ok o =>
      cases o with
      | none => rfl
      | some t =>
        obtain ⟨al, lag⟩ := t
        rw [ok_bind, ok_bind]
        dsimp only
        have e : calculateSimilarity .wrapping m'.numBands m'.filterBank ref al (AnalysisWindow.mk' ref.sampleRate 0.25 0.08) m'.patchCreator m'.mapper m'.searchWindow =
            calculateSimilarity .wrapping m.numBands m.filterBank ref al (AnalysisWindow.mk' ref.sampleRate 0.25 0.08) m.patchCreator m.mapper m.searchWindow := by
          rw [e1, e2, e3, hpc, hpc']
          unfold calculateSimilarity
          refine bind_congr_ok fun x1 _ => ?_
          refine bind_congr_ok fun x2 _ => ?_
          refine bind_congr_ok fun x3 _ => ?_
          refine bind_congr_ok fun ix _ => ?_
          refine bind_congr_ok fun ps hps => ?_
          dsimp only
          rw [find_wraps ps _ _ _ hK]
          intro q hq
          obtain ⟨i, _, hi⟩ := mapE_ok_mem hps hq
          obtain ⟨_, _, _, h4, _⟩ := sliceCols_ok hi
          rw [h4]
          show i + 20 - i = 20
          omega
        rw [e]
        cases calculateSimilarity .wrapping m.numBands m.filterBank ref al (AnalysisWindow.mk' ref.sampleRate 0.25 0.08) m.patchCreator m.mapper m.searchWindow <;> rfl
  · rintro ⟨m'', res⟩ h
    have := (C51_radius_overflow h (by rw [hpc']; decide)).2
    have e : m'.patchCreator.patchSize = 20 := by rw [hpc']; rfl
    rw [e, wrapI32_of_mem (by omega) (by omega)] at this
    omega

end

/-- The hypotheses of `C87_release` are met, by a run in double precision that succeeds. -/
example : ∃ (m m' : Manager B64) (res : SimilarityResult B64), (m.patchCreator = .vad 30 ∨ m.patchCreator = .image 20) ∧ m.searchWindow ≤ 2 ^ 25 ∧
    noSound.sampleRate = 16000 ∧ (onset B64 1000 40000).sampleRate = 16000 ∧ noSound.data.length + (onset B64 1000 40000).data.length ≤ 2 ^ 30 ∧
    m.computeResults .wrapping noSound (onset B64 1000 40000) = .ok (m', res) := by
  obtain ⟨m', res, h, _⟩ := silent_speech_run .wrapping false
  refine ⟨_, m', res, .inr rfl, ?_, rfl, rfl, ?_, h⟩
  · show 60 ≤ 2 ^ 25
    norm_num
  · rw [noSound_length, onset_length]
    norm_num

/-- A run on which the two builds differ: with a radius of `2^30 + 60` the release build returns a result and the debug build
does not. -/
example : ∃ (m : Manager B64) (res : SimilarityResult B64), m.searchWindow = 2 ^ 30 + 60 ∧
    returned (m.computeResults .wrapping noSound (onset B64 1000 40000)) = .ok res ∧
    ∀ x, m.computeResults .checked noSound (onset B64 1000 40000) ≠ .ok x := by
  obtain ⟨m', res, h, _⟩ := silent_speech_run .wrapping false
  obtain ⟨h1, h2⟩ := C87_radius_wraps (m := (⟨32, 60, .image 20, .speech false, FilterBank.new 32 50.0⟩ : Manager B64)) rfl
    (by show 60 < 2 ^ 30; norm_num) rfl noSound (onset B64 1000 40000)
  rw [h] at h1
  exact ⟨_, res, by norm_num, h1, h2⟩

end Visqol
