import Verif.Lemmas.Ieee
import Verif.Lemmas.Envelope

/-! # Alignment of a signal that begins with NaN never succeeds -/

set_option linter.unusedSectionVars false

namespace Visqol
open Ieee
variable {F : Type} [Flt F] [Ieee F] [RustFft F] [NanFft F]

/-- All numbers are NaN. -/
def AllNaN (l : List F) : Prop := ∀ a ∈ l, val a = .nan

/-- The real part of every number is NaN. -/
def AllNaNRe (l : List (Cpx F)) : Prop := ∀ c ∈ l, val c.re = .nan

/-- The list begins with NaN. -/
def StartsNaN (l : List F) : Prop := ∃ a t, l = a :: t ∧ val a = .nan

theorem forward1d_nan {m : FftManager} {s : List F} (hm : 0 < m.fftSize) (h : StartsNaN s) : AllNaNRe (forward1d m s) := by
  obtain ⟨a, t, rfl, ha⟩ := h
  obtain ⟨n, hn⟩ := Nat.exists_eq_succ_of_ne_zero hm.ne'
  unfold forward1d resize
  rw [hn, List.take_succ_cons, List.cons_append, List.map_cons]
  exact NanFft.forward_nan _ _ ha

theorem inverse1d_nan {m : FftManager} {freq : List (Cpx F)} (h : AllNaNRe freq) {v : List F} (hv : inverse1d m freq = .ok v) :
    AllNaN v := by
  unfold inverse1d at hv
  split at hv
  · cases hv
  dsimp only at hv
  split at hv
  · cases hv
    intro a ha
    obtain ⟨c, hc, rfl⟩ := List.mem_map.mp (List.mem_of_mem_take ha)
    apply nan_mul
    left
    cases freq with
    | nil =>
      have := RustFft.length_inverse (F := F) []
      rw [List.length_nil, List.length_eq_zero_iff] at this
      rw [this] at hc
      simp at hc
    | cons x l => exact NanFft.inverse_nan x l (h x (by simp)) c hc
  · cases hv

theorem fftSize_pos {p : Profile} {n : Nat} {m : FftManager} (h : FftManager.new p n = .ok m) : 0 < m.fftSize := by
  unfold FftManager.new at h
  obtain ⟨x, _, h⟩ := bind_ok h
  cases h
  show 0 < max x 32
  omega

theorem samples_eq {p : Profile} {n : Nat} {m : FftManager} (h : FftManager.new p n = .ok m) : m.samplesPerChannel = n := by
  unfold FftManager.new at h
  obtain ⟨x, _, h⟩ := bind_ok h
  cases h
  rfl

theorem inverse1d_length {m : FftManager} {freq : List (Cpx F)} {v : List F} (hv : inverse1d m freq = .ok v) :
    v.length = m.samplesPerChannel := by
  unfold inverse1d at hv
  split at hv
  · cases hv
  dsimp only at hv
  split at hv
  · cases hv
    rw [List.length_take]; omega
  · cases hv

/-- The envelope of a signal with a NaN is NaN throughout. -/
theorem upperEnv_nan {p : Profile} {s env : List F} (h : StartsNaN s) (he : calculateUpperEnv p s = .ok (some env)) :
    AllNaN env ∧ env.length = s.length := by
  obtain ⟨a, t, hs, ha⟩ := h
  unfold calculateUpperEnv meanOpt at he
  rw [if_neg (by rw [hs]; simp)] at he
  dsimp only at he
  have hmean : val (Flt.sum s / Flt.ofNat s.length) = .nan :=
    div_nan _ _ (Or.inl (sum_nan s ⟨a, by rw [hs]; simp, ha⟩))
  generalize Flt.sum s / Flt.ofNat s.length = mean at *
  obtain ⟨hil, hh, he⟩ := bind_ok he
  cases he
  refine ⟨?_, ?_⟩
  · intro b hb
    obtain ⟨c, _, rfl⟩ := List.mem_map.mp hb
    exact nan_add (Or.inr hmean)
  · rw [List.length_map, List.length_map]
    unfold calculateHilbert at hh
    obtain ⟨m, hm, hh⟩ := bind_ok hh
    dsimp only at hh
    obtain ⟨sc, _, hh⟩ := bind_ok hh
    obtain ⟨v, hv, hh⟩ := bind_ok hh
    cases hh
    rw [List.length_map, inverse1d_length hv, samples_eq hm, List.length_map]

theorem maxByAbs_nan {l : List F} (h : AllNaN l) {x : Option F} (hx : maxByAbs l = .ok x) : x = none ∨ ∃ a ∈ l, x = some a := by
  cases l with
  | nil => cases hx; exact .inl rfl
  | cons a l =>
    unfold maxByAbs at hx
    obtain ⟨m, hm, hx⟩ := bind_ok hx
    cases hx
    right
    cases l with
    | nil => cases hm; exact ⟨_, by simp, rfl⟩
    | cons b l =>
      exfalso
      unfold foldE at hm
      rw [partialCmp_nan (Or.inl (nan_abs (h a (by simp))))] at hm
      cases hm

/-- No lag is found against a signal of NaNs. -/
theorem bestLag_nan {p : Profile} {s1 s2 : List F} (h : AllNaN s2) (hne : s2 ≠ []) {lag : Int} :
    calculateBestLag p s1 s2 ≠ .ok (some lag) := by
  intro hb
  unfold calculateBestLag at hb
  obtain ⟨ml, _, hb⟩ := bind_ok hb
  obtain ⟨v, hv, hb⟩ := bind_ok hb
  obtain ⟨st, _, hb⟩ := bind_ok hb
  obtain ⟨neg, hneg, hb⟩ := bind_ok hb
  obtain ⟨pos, hpos, hb⟩ := bind_ok hb
  dsimp only at hb
  obtain ⟨best, hbest, hb⟩ := bind_ok hb
  have hvn : AllNaN v := by
    unfold inverseFftPointwiseProduct at hv
    dsimp only at hv
    obtain ⟨len, _, hv⟩ := bind_ok hv
    obtain ⟨pts, _, hv⟩ := bind_ok hv
    obtain ⟨m, hm, hv⟩ := bind_ok hv
    obtain ⟨prod, hprod, hv⟩ := bind_ok hv
    apply inverse1d_nan _ hv
    unfold fftPointwiseProduct at hprod
    obtain ⟨f2, hf2, hprod⟩ := bind_ok hprod
    obtain ⟨f1, _, hprod⟩ := bind_ok hprod
    cases hprod
    unfold forward1dFromPoints at hf2
    obtain ⟨k, _, hf2⟩ := bind_ok hf2
    cases hf2
    have hf : AllNaNRe (forward1d m (resize s2 (max s1.length s2.length) 0.0 ++ List.replicate k 0.0)) := by
      apply forward1d_nan (fftSize_pos hm)
      obtain ⟨a, t, rfl⟩ := List.exists_cons_of_ne_nil hne
      have : ∃ n, max s1.length (a :: t).length = n + 1 := ⟨max s1.length (a :: t).length - 1, by simp only [List.length_cons]; omega⟩
      obtain ⟨n, hn⟩ := this
      unfold resize
      rw [hn, List.take_succ_cons]
      exact ⟨a, _, rfl, h a (by simp)⟩
    generalize forward1d m (resize s2 (max s1.length s2.length) 0.0 ++ List.replicate k 0.0) = L at hf ⊢
    intro c hc
    obtain ⟨i, hi, rfl⟩ := List.getElem_of_mem hc
    rw [List.getElem_zipWith, List.getElem_map]
    apply nan_sub
    left
    apply nan_mul
    right
    have hi2 := hi
    rw [List.length_zipWith, List.length_map] at hi2
    exact hf (L[i]'(by omega)) (List.getElem_mem _)
  have hcn : AllNaN (neg ++ pos) := by
    unfold sliceM at hneg hpos
    split at hneg
    · cases hneg
      split at hpos
      · cases hpos
        intro a ha
        apply hvn
        rcases List.mem_append.mp ha with ha | ha <;> exact List.mem_of_mem_drop (List.mem_of_mem_take ha)
      · cases hpos
    · cases hneg
  rcases maxByAbs_nan hcn hbest with rfl | ⟨a, ha, rfl⟩
  · cases hb
  · dsimp only at hb
    have : (neg ++ pos).findIdx? (fun r => Flt.eq r a) = none := by
      rw [List.findIdx?_eq_none_iff]
      intro x hx
      rw [eq_val, hcn x hx]
      rfl
    rw [this] at hb
    cases hb

/-- A degraded signal that begins with NaN is never aligned. -/
theorem globallyAlign_nan {p : Profile} {ref deg : AudioSignal F} (h : StartsNaN deg.data) {x : AudioSignal F × F} :
    globallyAlign p ref deg ≠ .ok (some x) := by
  intro ha
  unfold globallyAlign at ha
  obtain ⟨renv, _, ha⟩ := bind_ok ha
  cases renv with
  | none => cases ha
  | some renv =>
    dsimp only at ha
    obtain ⟨denv, hd, ha⟩ := bind_ok ha
    cases denv with
    | none => cases ha
    | some denv =>
      dsimp only at ha
      obtain ⟨lag, hl, ha⟩ := bind_ok ha
      cases lag with
      | none => cases ha
      | some lag =>
        obtain ⟨h1, h2⟩ := upperEnv_nan h hd
        refine bestLag_nan h1 ?_ hl
        obtain ⟨a, t, e, _⟩ := h
        rintro rfl
        rw [e] at h2
        simp at h2

theorem alignAndTruncate_nan {p : Profile} {ref deg : AudioSignal F} (h : StartsNaN deg.data)
    {x : AudioSignal F × AudioSignal F × F} : alignAndTruncate p ref deg ≠ .ok (some x) := by
  intro ha
  unfold alignAndTruncate at ha
  obtain ⟨g, hg, ha⟩ := bind_ok ha
  cases g with
  | none => cases ha
  | some g => exact globallyAlign_nan h hg

end Visqol
