import Verif.Props.WindowRounded
import Verif.Props.Witness2

/-! # A larger search radius does not find a worse match (C85) -/

set_option linter.unusedSectionVars false

namespace Visqol

open Ieee

theorem InWindow.mono {ix : List Nat} {sw sw' N k o : Nat} (h : InWindow ix sw N k o) (hle : sw ≤ sw') : InWindow ix sw' N k o := by
  obtain ⟨i, h1, h2, h3, h4⟩ := h
  exact ⟨i, h1, by omega, by omega, h4⟩

theorem Within.mono {ix : List Nat} {sw sw' N : Nat} {c : List (Option Nat)} (h : Within ix sw N c) (hle : sw ≤ sw') : Within ix sw' N c :=
  ⟨h.order, fun k hk => by
    obtain ⟨o, h1, h2⟩ := h.window k hk
    exact ⟨o, h1, h2.mono hle⟩⟩

/-- The number of patches that are compared does not depend on the search radius. -/
theorem C85_same_count {F : Type} [Flt F] {p : Profile} {rps : List (Mat F)} {ix : List Nat} {deg : Mat F} {fd : F} {r r' : Int} {pp : Nat}
    {rs rs' : List (PatchSim F)} (h : findMostOptimalDegPatches p rps ix deg fd r = .ok rs)
    (h' : findMostOptimalDegPatches p rps ix deg fd r' = .ok rs') (hl : rps.length = ix.length) (hpp : ∀ q ∈ rps, q.ncols = pp) :
    rs.length = rs'.length := by
  have e := find_calcMax h hl hpp
  rw [find_calcMax h' hl hpp] at e
  exact (Except.ok.inj e).symm

/-- C85: with a larger search radius the reported similarities have a total at least as large, provided that the similarities in the larger
windows are positive. -/
theorem C85_radius_monotone {p : Profile} {rps : List (Mat ℝ)} {ix : List Nat} {deg : Mat ℝ} {fd : ℝ} {r r' pp nb : Nat}
    {rs rs' : List (PatchSim ℝ)} (h : findMostOptimalDegPatches p rps ix deg fd r = .ok rs)
    (h' : findMostOptimalDegPatches p rps ix deg fd r' = .ok rs') (hrr : r ≤ r')
    (hl : rps.length = ix.length) (hr : ∀ q ∈ rps, q.WF ∧ q.nrows = nb ∧ q.ncols = pp)
    (wd : deg.WF) (hN2 : deg.ncols + pp < 9223372036854775808) (hpp2 : pp ≤ 2147483647)
    (hlen : ix.length ≤ 18446744073709551615) (hbig : ∀ i ∈ ix, i + r' * pp ≤ 2147483647)
    (hsorted : ix.Pairwise (· < ·)) (hdeg : 0 < deg.ncols) (hreach : ∀ i ∈ ix, i < deg.ncols + r * pp)
    (hpos : ∀ k < rs.length, ∀ o, InWindow ix (r' * pp) deg.ncols k o → 0 < simAt p rps deg k o) :
    rs.length = rs'.length ∧ (rs.map PatchSim.similarity).sum ≤ (rs'.map PatchSim.similarity).sum := by
  have hle : r * pp ≤ r' * pp := Nat.mul_le_mul_right pp hrr
  have hcount := C85_same_count h h' hl fun q hq => (hr q hq).2.2
  refine ⟨hcount, ?_⟩
  obtain ⟨c, c1, c2, _, c3, _⟩ := C72_window h hl hr wd hN2 hpp2 hlen (fun i hi => by have := hbig i hi; omega) hsorted hdeg hreach
    (fun k hk o ho => hpos k hk o (ho.mono hle))
  obtain ⟨c', _, _, _, d3, d4⟩ := C72_window h' hl hr wd hN2 hpp2 hlen hbig hsorted hdeg (fun i hi => by have := hreach i hi; omega)
    (fun k hk o ho => hpos k (by omega) o ho)
  rw [← c3, ← d3]
  exact d4 c (by omega) (c2.mono hle)

/-- C85, in floating point: the matches reported with the larger radius have a total, formed by adding the similarities one after the other in
floating point, that is not less than that of the matches reported with the smaller radius. -/
theorem C85_radius_rounded {F : Type} [Flt F] [Ieee F] {p : Profile} {rps : List (Mat F)} {ix : List Nat} {deg : Mat F} {fd : F} {r r' pp nb : Nat}
    {rs rs' : List (PatchSim F)} {S : ℝ} (h : findMostOptimalDegPatches p rps ix deg fd r = .ok rs)
    (h' : findMostOptimalDegPatches p rps ix deg fd r' = .ok rs') (hrr : r ≤ r')
    (hl : rps.length = ix.length) (hr : ∀ q ∈ rps, q.WF ∧ q.nrows = nb ∧ q.ncols = pp)
    (wd : deg.WF) (hN2 : deg.ncols + pp < 9223372036854775808) (hpp2 : pp ≤ 2147483647)
    (hlen : ix.length ≤ 2 ^ 50) (hbig : ∀ i ∈ ix, i + r' * pp ≤ 2147483647)
    (hsorted : ix.Pairwise (· < ·)) (hdeg : 0 < deg.ncols) (hreach : ∀ i ∈ ix, i < deg.ncols + r * pp)
    (hS0 : 1 ≤ S) (hS : S ≤ 2 ^ 850) (hsim : SimilaritiesWithin p S rps deg)
    (hpos : ∀ k < rs.length, ∀ o, InWindow ix (r' * pp) deg.ncols k o → ∀ x, val (simAt p rps deg k o) = .fin x → 0 < x) :
    rs.length = rs'.length ∧ ∃ (c c' : List (Option Nat)) (t t' : F),
      (c.length = rs.length ∧ ∀ j < rs.length, ∃ s x m, rs[j]? = some s ∧ c[j]? = some x ∧ rps[j]? = some m ∧
        Reports p deg m fd (fd * Flt.ofNat pp) s x) ∧
      (c'.length = rs'.length ∧ ∀ j < rs'.length, ∃ s x m, rs'[j]? = some s ∧ c'[j]? = some x ∧ rps[j]? = some m ∧
        Reports p deg m fd (fd * Flt.ofNat pp) s x) ∧
      runningTotal (simAt p rps deg) c = some t ∧ runningTotal (simAt p rps deg) c' = some t' ∧
      (∃ x x', val t = .fin x ∧ val t' = .fin x' ∧ x ≤ x') := by
  have hle : r * pp ≤ r' * pp := Nat.mul_le_mul_right pp hrr
  have hcount := C85_same_count h h' hl fun q hq => (hr q hq).2.2
  refine ⟨hcount, ?_⟩
  obtain ⟨c, t, c1, c2, c3, c4, ⟨x, c5⟩, _⟩ := C72_window_rounded h hl hr wd hN2 hpp2 hlen (fun i hi => by have := hbig i hi; omega) hsorted hdeg
    hreach hS0 hS hsim (fun k hk o ho => hpos k hk o (ho.mono hle))
  obtain ⟨c', t', d1, _, d3, d4, ⟨x', d5⟩, d6⟩ := C72_window_rounded h' hl hr wd hN2 hpp2 hlen hbig hsorted hdeg
    (fun i hi => by have := hreach i hi; omega) hS0 hS hsim (fun k hk o ho => hpos k (by omega) o ho)
  obtain ⟨u, u1, _, u3⟩ := d6 c (by omega) (c2.mono hle)
  rw [c4] at u1
  cases u1
  refine ⟨c, c', t, t', ⟨c1, c3⟩, ⟨d1, d3⟩, c4, d4, x, x', c5, d5, ?_⟩
  by_contra hlt
  rw [Is.lt d5 c5, decide_eq_false_iff_not] at u3
  exact u3 (not_le.mp hlt)

/-- The hypotheses of `C85_radius_monotone`: three patches, and search radii of one and two patches, neither of which covers the degraded
spectrogram. -/
example (p : Profile) : ∃ rs rs',
    findMostOptimalDegPatches p [flatMat 10, flatMat 10, flatMat 10] [5, 15, 25] (flatMat 60) (0.02 : ℝ) (1 : ℕ) = .ok rs ∧
    findMostOptimalDegPatches p [flatMat 10, flatMat 10, flatMat 10] [5, 15, 25] (flatMat 60) (0.02 : ℝ) (2 : ℕ) = .ok rs' ∧
    rs.length = rs'.length ∧ (rs.map PatchSim.similarity).sum ≤ (rs'.map PatchSim.similarity).sum ∧
    InWindow [5, 15, 25] (2 * 10) (flatMat 60).ncols 0 16 ∧ ¬ InWindow [5, 15, 25] (1 * 10) (flatMat 60).ncols 0 16 := by
  have hq : ∀ q ∈ [flatMat 10, flatMat 10, flatMat 10], q.WF ∧ q.nrows = 10 ∧ q.ncols = 10 := by
    intro q hq
    simp only [List.mem_cons, List.not_mem_nil, or_false, or_self] at hq
    rw [hq]
    exact ⟨(flatMat_wf 10).1, (flatMat_wf 10).2, rfl⟩
  have hN : (flatMat 60).ncols = 60 := rfl
  obtain ⟨rs, h⟩ := C34_no_panic p (rps := [flatMat 10, flatMat 10, flatMat 10]) (ix := [5, 15, 25]) (deg := flatMat 60)
    (fd := 0.02) (radius := (1 : ℕ)) (nb := 10) (pp := 10) rfl hq (by decide) (by decide) (flatMat_wf 60).1 (flatMat_wf 60).2
    (by rw [hN]; decide) (by rw [hN]; decide) (by decide) (by decide) (by decide) (by decide) (by decide)
    ⟨15, by decide, by decide, by rw [hN]; decide⟩ (by rw [hN]; decide)
  obtain ⟨rs', h'⟩ := C34_no_panic p (rps := [flatMat 10, flatMat 10, flatMat 10]) (ix := [5, 15, 25]) (deg := flatMat 60)
    (fd := 0.02) (radius := (2 : ℕ)) (nb := 10) (pp := 10) rfl hq (by decide) (by decide) (flatMat_wf 60).1 (flatMat_wf 60).2
    (by rw [hN]; decide) (by rw [hN]; decide) (by decide) (by decide) (by decide) (by decide) (by decide)
    ⟨15, by decide, by decide, by rw [hN]; decide⟩ (by rw [hN]; decide)
  have hlen : rs.length ≤ 3 := calcMaxLoop_le (find_calcMax h rfl fun q m => (hq q m).2.2) |>.2
  obtain ⟨e1, e2⟩ := C85_radius_monotone (nb := 10) (pp := 10) h h' (by decide) rfl hq (flatMat_wf 60).1 (by rw [hN]; decide) (by decide)
    (by decide) (by decide) (by decide) (by rw [hN]; decide) (by rw [hN]; decide)
    (fun k hk o _ => flatMat_sim_pos p (lt_of_lt_of_le hk hlen) o)
  refine ⟨rs, rs', h, h', e1, e2, ⟨5, rfl, by omega, by omega, by rw [hN]; omega⟩, ?_⟩
  rintro ⟨i, i1, i2, i3, i4⟩
  cases i1
  omega

/-- The hypotheses of `C85_radius_rounded`: the same in double precision. -/
example (p : Profile) : ∃ rs rs' c c' t t' x x',
    findMostOptimalDegPatches p [flat64 10, flat64 10, flat64 10] [5, 15, 25] (flat64 60) (0.02 : B64) (1 : ℕ) = .ok rs ∧
    findMostOptimalDegPatches p [flat64 10, flat64 10, flat64 10] [5, 15, 25] (flat64 60) (0.02 : B64) (2 : ℕ) = .ok rs' ∧
    rs.length = rs'.length ∧ runningTotal (simAt p [flat64 10, flat64 10, flat64 10] (flat64 60)) c = some t ∧
    runningTotal (simAt p [flat64 10, flat64 10, flat64 10] (flat64 60)) c' = some t' ∧ val t = .fin x ∧ val t' = .fin x' ∧ x ≤ x' := by
  have hall : ∀ q ∈ [flat64 10, flat64 10, flat64 10], q = flat64 10 := by
    intro q hq
    simpa only [List.mem_cons, List.not_mem_nil, or_false, or_self] using hq
  have hq : ∀ q ∈ [flat64 10, flat64 10, flat64 10], q.WF ∧ q.nrows = 10 ∧ q.ncols = 10 := by
    intro q hq
    rw [hall q hq]
    exact ⟨(flat64_wf 10).1, (flat64_wf 10).2, rfl⟩
  have hN : (flat64 60).ncols = 60 := rfl
  have hs : SimilaritiesWithin p (2 ^ 600) [flat64 10, flat64 10, flat64 10] (flat64 60) :=
    similarities_within (n := 0) (nb := 10) (pp := 10) (by norm_num) hq (by norm_num) (by norm_num) (by norm_num) (by norm_num)
      (flat64_wf 60).2 (fun q hq => by rw [hall q hq]; exact flat64_pw 10) (flat64_pw 60)
  have h1 : (1 : ℝ) ≤ 2 ^ 600 := by simpa using two_pow_mono (m := 0) (n := 600) (by norm_num)
  obtain ⟨rs, h⟩ := C34_no_panic_rounded p (rps := [flat64 10, flat64 10, flat64 10]) (ix := [5, 15, 25]) (deg := flat64 60)
    (fd := 0.02) (radius := (1 : ℕ)) (nb := 10) (pp := 10) (S := 2 ^ 600) rfl hq (by decide) (by decide) (flat64_wf 60).1 (flat64_wf 60).2
    (by rw [hN]; decide) (by rw [hN]; decide) (by decide) (by decide) (by norm_num) (by decide) (by decide)
    ⟨15, by decide, by decide, by rw [hN]; decide⟩ (by rw [hN]; decide) h1 (two_pow_mono (by norm_num)) hs
  obtain ⟨rs', h'⟩ := C34_no_panic_rounded p (rps := [flat64 10, flat64 10, flat64 10]) (ix := [5, 15, 25]) (deg := flat64 60)
    (fd := 0.02) (radius := (2 : ℕ)) (nb := 10) (pp := 10) (S := 2 ^ 600) rfl hq (by decide) (by decide) (flat64_wf 60).1 (flat64_wf 60).2
    (by rw [hN]; decide) (by rw [hN]; decide) (by decide) (by decide) (by norm_num) (by decide) (by decide)
    ⟨15, by decide, by decide, by rw [hN]; decide⟩ (by rw [hN]; decide) h1 (two_pow_mono (by norm_num)) hs
  have hlen : rs.length ≤ 3 := calcMaxLoop_le (find_calcMax h rfl fun q m => (hq q m).2.2) |>.2
  obtain ⟨e1, c, c', t, t', _, _, e2, e3, x, x', e4, e5, e6⟩ := C85_radius_rounded (nb := 10) (pp := 10) (S := 2 ^ 600) h h' (by decide) rfl hq
    (flat64_wf 60).1 (by rw [hN]; decide) (by decide) (by norm_num) (by decide) (by decide) (by rw [hN]; decide) (by rw [hN]; decide) h1
    (two_pow_mono (by norm_num)) hs (fun k hk o ho x hx => by
      obtain ⟨i, i1, i2, i3, _⟩ := ho
      have : i ∈ [5, 15, 25] := List.mem_of_getElem? i1
      simp only [List.mem_cons, List.not_mem_nil, or_false] at this
      exact flat64_sim_pos p (lt_of_lt_of_le hk hlen) (by omega) hx)
  exact ⟨rs, rs', c, c', t, t', x, x', h, h', e1, e2, e3, e4, e5, e6⟩

end Visqol
