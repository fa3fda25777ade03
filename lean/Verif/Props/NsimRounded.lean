import Verif.Lemmas.IeeeNsim
import Verif.Num.Binary64Libm

/-! # NSIM in floating point: symmetry (C09) and finite scores (C73) -/

namespace Visqol
open Ieee

/-! ## C09 -/

section comm
variable {F : Type} [Flt F]

theorem simCell_comm_any (hadd : ∀ a b : F, a + b = b + a) (hmul : ∀ a b : F, a * b = b * a) (x y : Nat → Nat → F) :
    simCell x y = simCell y x := by
  unfold simCell
  dsimp only
  have e : (fun r c => x r c * y r c) = fun r c => y r c * x r c := by
    funext r c; exact hmul _ _
  rw [e, hmul (nsimAvg x) (nsimAvg y), hadd (nsimAvg x * nsimAvg x),
    hmul (nsimAvg (fun r c => x r c * x r c) - nsimAvg x * nsimAvg x)]

/-- C09, in every arithmetic with commutative addition and multiplication (floating point included): swapping the two patches changes
neither band means, nor deviations, nor the similarity. -/
theorem C09_symmetric_rounded (hadd : ∀ a b : F, a + b = b + a) (hmul : ∀ a b : F, a * b = b * a) (p : Profile) (a b : Mat F)
    (wa : a.WF) (wb : b.WF) (r : PatchSim F) (h : measurePatchSimilarity p a b = .ok r) :
    ∃ r', measurePatchSimilarity p b a = .ok r' ∧ r'.freqBandMeans = r.freqBandMeans ∧
      r'.freqBandStddevs = r.freqBandStddevs ∧ r'.similarity = r.similarity := by
  obtain ⟨hs, hn, hc⟩ := measure_ok_inv h
  rw [measurePatchSimilarity_eq p a b wa wb hs hn hc] at h
  cases h
  have hs' : b.SameShape a := ⟨hs.1.symm, hs.2.symm⟩
  refine ⟨_, measurePatchSimilarity_eq p b a wb wa hs' (by rw [hs'.1]; exact hn) (by rw [hs'.2]; exact hc), ?_⟩
  have e : (fun i j => simCell (b.near i j) (a.near i j)) = fun i j => simCell (a.near i j) (b.near i j) := by
    funext i j; exact simCell_comm_any hadd hmul _ _
  rw [e, hs'.1, hs'.2]
  exact ⟨rfl, rfl, rfl⟩

end comm

theorem B64.ext' {a b : B64} (h : a.val = b.val) : a = b := by
  cases a; cases b; cases h; rfl

theorem B64.add_comm' (a b : B64) : a + b = b + a := by
  apply B64.ext'
  show a.val.add B64.rnd b.val = b.val.add B64.rnd a.val
  cases a.val <;> cases b.val <;> simp only [Val.add, add_comm]
  rename_i s t
  cases s <;> cases t <;> rfl

theorem B64.mul_comm' (a b : B64) : a * b = b * a := by
  apply B64.ext'
  show a.val.mul B64.rnd b.val = b.val.mul B64.rnd a.val
  cases a.val <;> cases b.val <;> simp only [Val.mul, mul_comm]
  rename_i s t
  cases s <;> cases t <;> rfl

/-- The hypotheses of `C09_symmetric_rounded`: two different patches in double precision. -/
example : ∃ (a b : Mat B64) (r : PatchSim B64), a.WF ∧ b.WF ∧ a ≠ b ∧ measurePatchSimilarity .checked a b = .ok r ∧
    (∀ a b : B64, a + b = b + a) ∧ ∀ a b : B64, a * b = b * a := by
  have wa : (⟨3, [[1.0, 2.0, 3.0], [4.0, 5.0, 6.0]]⟩ : Mat B64).WF := by
    intro r hr; simp at hr; rcases hr with rfl | rfl <;> rfl
  have wb : (⟨3, [[0.0, 2.0, 3.0], [4.0, 7.0, 6.0]]⟩ : Mat B64).WF := by
    intro r hr; simp at hr; rcases hr with rfl | rfl <;> rfl
  obtain ⟨r, hr⟩ := C07_total .checked _ _ wa wb ⟨rfl, rfl⟩ (by decide) (by decide)
  refine ⟨_, _, r, wa, wb, ?_, hr, B64.add_comm', B64.mul_comm'⟩
  intro h
  have h1 : (1.0 : B64) = 0.0 := by
    simp only [Mat.mk.injEq, List.cons.injEq, true_and] at h
    exact h.1.1
  have h2 := congrArg (val : B64 → Val) h1
  rw [val_1, val_0] at h2
  injection h2 with h2
  norm_num at h2

/-! ## C73 -/

/-- The level is a number (not NaN, not infinite) of moderate size. -/
def Ordinary {F : Type} [Flt F] [Ieee F] (m : Mat F) : Prop :=
  ∀ r ∈ m.rows, ∀ a ∈ r, ∃ x, val a = .fin x ∧ |x| ≤ 2 ^ 100

/-- C73: two patches of the same shape whose levels are ordinary numbers can be compared, and the similarity, every band mean and every
degraded band energy are finite. -/
theorem C73_finite {F : Type} [Flt F] [Ieee F] [Libm F] (p : Profile) {ref deg : Mat F} (wr : ref.WF) (wd : deg.WF)
    (hs : ref.SameShape deg) (hn : 0 < ref.nrows) (hc : 0 < ref.ncols) (hn2 : ref.nrows ≤ 2 ^ 32) (hc2 : ref.ncols ≤ 2 ^ 32)
    (hr : Ordinary ref) (hd : Ordinary deg) :
    ∃ q, measurePatchSimilarity p ref deg = .ok q ∧ (∃ x, val q.similarity = .fin x) ∧
      q.freqBandMeans.length = ref.nrows ∧ (∀ a ∈ q.freqBandMeans, ∃ x, val a = .fin x) ∧
      q.freqBandDegEnergy.length = ref.nrows ∧ (∀ a ∈ q.freqBandDegEnergy, ∃ x, val a = .fin x) := by
  obtain ⟨q, hq⟩ := C07_total p ref deg wr wd hs hn hc
  obtain ⟨h1, h2, h3⟩ := measure_pw (n := 100) hr hd le_rfl wr wd hs hn hc hn2 hc2 hq
  have hq' := hq
  rw [measurePatchSimilarity_eq p ref deg wr wd hs hn hc] at hq'
  refine ⟨q, hq, ⟨_, h1.choose_spec.1⟩, ?_, fun a ha => ⟨_, (h2 a ha).choose_spec.1⟩, ?_, fun a ha => ⟨_, (h3 a ha).choose_spec.1⟩⟩
  · cases hq'; show (List.map _ (Mat.ofFn _ _ _).rows).length = _; rw [List.length_map]; exact Mat.ofFn_nrows _ _ _
  · cases hq'; show (List.map _ deg.rows).length = _; rw [List.length_map]; exact hs.1.symm

/-! ## Examples for matching in double precision -/

/-- Ten bands, all levels equal to one, in double precision. -/
noncomputable def flat64 (n : Nat) : Mat B64 := ⟨n, List.replicate 10 (List.replicate n 1.0)⟩

theorem flat64_wf (n : Nat) : (flat64 n).WF ∧ (flat64 n).nrows = 10 := by
  constructor
  · intro r hr
    rw [List.eq_of_mem_replicate hr]; simp [flat64]
  · simp [flat64, Mat.nrows]

theorem flat64_pw (n : Nat) : (flat64 n).Pw 0 := by
  intro r hr a ha
  rw [List.eq_of_mem_replicate hr] at ha
  rw [List.eq_of_mem_replicate ha]
  exact ⟨1, val_1, by norm_num⟩

/-- The hypotheses of `C73_finite`: ten bands and thirty columns in double precision. -/
example : (flat64 30).WF ∧ (flat64 30).SameShape (flat64 30) ∧ 0 < (flat64 30).nrows ∧ 0 < (flat64 30).ncols ∧ Ordinary (flat64 30) := by
  refine ⟨(flat64_wf 30).1, ⟨rfl, rfl⟩, by rw [(flat64_wf 30).2]; norm_num, by decide, fun r hr a ha => ?_⟩
  obtain ⟨x, h1, h2⟩ := flat64_pw 30 r hr a ha
  exact ⟨x, h1, h2.trans (two_pow_mono (by norm_num))⟩

/-- The hypotheses of `C34_no_panic_rounded` and `C33_optimal_rounded`: three patches of ten columns in double precision, a search window
covering everything. -/
example (p : Profile) : ∃ rs, findMostOptimalDegPatches p [flat64 10, flat64 10, flat64 10] [4, 14, 24] (flat64 40) (0.02 : B64) 4 = .ok rs ∧
    (∀ q ∈ [flat64 10, flat64 10, flat64 10], q.WF ∧ q.nrows = 10 ∧ q.ncols = 10) ∧ (flat64 40).WF ∧
    (∀ i ∈ [4, 14, 24], (i : Int) ≤ 4 * (10 : ℕ) ∧ ((flat64 40).ncols : Int) ≤ i + 4 * (10 : ℕ) + 1) ∧
    SimilaritiesWithin p (2 ^ 600) [flat64 10, flat64 10, flat64 10] (flat64 40) := by
  have hall : ∀ q ∈ [flat64 10, flat64 10, flat64 10], q = flat64 10 := by
    intro q hq
    simpa only [List.mem_cons, List.not_mem_nil, or_false, or_self] using hq
  have hq : ∀ q ∈ [flat64 10, flat64 10, flat64 10], q.WF ∧ q.nrows = 10 ∧ q.ncols = 10 := by
    intro q hq
    rw [hall q hq]
    exact ⟨(flat64_wf 10).1, (flat64_wf 10).2, rfl⟩
  have hN : (flat64 40).ncols = 40 := rfl
  have hs : SimilaritiesWithin p (2 ^ 600) [flat64 10, flat64 10, flat64 10] (flat64 40) :=
    similarities_within (n := 0) (nb := 10) (pp := 10) (by norm_num) hq (by norm_num) (by norm_num) (by norm_num) (by norm_num)
      (flat64_wf 40).2 (fun q hq => by rw [hall q hq]; exact flat64_pw 10) (flat64_pw 40)
  obtain ⟨rs, h⟩ := C34_no_panic_rounded p (rps := [flat64 10, flat64 10, flat64 10]) (ix := [4, 14, 24]) (deg := flat64 40)
    (fd := 0.02) (radius := 4) (nb := 10) (pp := 10) (S := 2 ^ 600) rfl hq (by decide) (by decide) (flat64_wf 40).1 (flat64_wf 40).2
    (by rw [hN]; decide) (by rw [hN]; decide) (by decide) (by decide) (by norm_num) (by decide) (by decide)
    ⟨14, by decide, by decide, by rw [hN]; decide⟩ (by rw [hN]; decide) (by simpa using two_pow_mono (m := 0) (n := 600) (by norm_num)) (two_pow_mono (by norm_num)) hs
  exact ⟨rs, h, hq, (flat64_wf 40).1, by rw [hN]; decide, hs⟩

end Visqol
