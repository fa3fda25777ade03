import Verif.Props.Patches
import Verif.Props.Optimal

/-! # The first reference patch always has a match -/

set_option linter.unusedSectionVars false

namespace Visqol
variable {F : Type} [Flt F]

theorem backtrack_first {p : Profile} {deg : Mat F} {fd pd : F} : ∀ (l : List (Mat F × Nat × List Nat)) (o : Nat)
    (rs : List (PatchSim F)), backtrack p deg fd pd l o = .ok rs → ∀ x, l.getLast? = some x →
    ∃ o' r back, backtraceStep p deg fd pd x.1 x.2.1 x.2.2 o' = .ok (r, back) ∧ rs[0]? = some r
  | [], _, _, _, _, hx => by simp at hx
  | (m, i, bt) :: l, o, rs, h, x, hx => by
    obtain ⟨⟨r, back⟩, h1, h⟩ := bind_ok h
    obtain ⟨rs', h2, h⟩ := bind_ok h
    cases h
    cases l with
    | nil =>
      cases h2
      simp only [List.getLast?_singleton, Option.some.injEq] at hx
      subst hx
      exact ⟨o, r, back, h1, rfl⟩
    | cons y l =>
      rw [List.getLast?_cons_cons] at hx
      obtain ⟨o', r', b', h3, h4⟩ := backtrack_first (y :: l) back rs' h2 x hx
      refine ⟨o', r', b', h3, ?_⟩
      rw [List.getElem?_append_left (List.getElem?_eq_some_iff.mp h4).1]
      exact h4

/-- The first patch is reported as matched, if its start lies within reach of the first column. -/
theorem find_first {p : Profile} {rps : List (Mat F)} {ix : List Nat} {deg : Mat F} {fd : F} {radius : Int}
    {rs : List (PatchSim F)} (h : findMostOptimalDegPatches p rps ix deg fd radius = .ok rs) (hl : rps.length = ix.length)
    (wd : deg.WF) (hN : deg.ncols < 9223372036854775808) {pp : Nat} (hpp : ∀ q ∈ rps, q.ncols = pp) {i : Nat} (hi : ix[0]? = some i)
    (hreach : (i : Int) ≤ radius * pp) (hfit : (i : Int) + radius * pp ≤ 2147483647) (hp31 : pp ≤ 2147483647) :
    ∃ m o r, rps[0]? = some m ∧ o < deg.ncols ∧ rs[0]? = some r ∧ MatchedAt p deg m fd (fd * Flt.ofNat pp) o r ∧
      r.refStart = Flt.ofNat i * fd ∧ r.refEnd = Flt.ofNat i * fd + fd * Flt.ofNat pp := by
  unfold findMostOptimalDegPatches at h
  obtain ⟨first, hf, h⟩ := bind_ok h
  have hf0 := idx_ok hf
  have hfp : first.ncols = pp := hpp _ (List.mem_of_getElem? hf0)
  obtain ⟨sw, hsw, h⟩ := bind_ok h
  rw [hfp, wrapI32_of_mem (z := (pp : Int)) (by omega) (by omega), i32_of_mem (by omega) (by omega)] at hsw
  cases hsw
  obtain ⟨n, hn, h⟩ := bind_ok h
  split at h
  · cases h
  rename_i hn0
  obtain ⟨dps, _, h⟩ := bind_ok h
  obtain ⟨rows, hrows, h⟩ := bind_ok h
  obtain ⟨li, _, h⟩ := bind_ok h
  obtain ⟨lo, _, h⟩ := bind_ok h
  obtain ⟨up, _, h⟩ := bind_ok h
  obtain ⟨up2, _, h⟩ := bind_ok h
  obtain ⟨lr, _, h⟩ := bind_ok h
  obtain ⟨best, _, h⟩ := bind_ok h
  have hz : (rps.zip ix)[0]? = some (first, i) := by rw [List.getElem?_zip_eq_some]; exact ⟨hf0, hi⟩
  obtain ⟨r0, hr0, prev', hfind, hprev, _⟩ := dpRows_get _ none rows hrows 0 first i hz
  obtain ⟨row, bt⟩ := r0
  obtain ⟨o', r, back, hstep, hr⟩ := backtrack_first _ _ _ h (first, i, bt) (by
    rw [List.getLast?_reverse, List.head?_eq_getElem?, List.getElem?_take_of_lt (by omega), List.getElem?_zip_eq_some]
    refine ⟨hf0, ?_⟩
    rw [List.getElem?_zip_eq_some]
    refine ⟨hi, ?_⟩
    rw [List.getElem?_map, hr0]; rfl)
  obtain ⟨b1, _, b3, b4, b5⟩ := backtraceStep_reports hstep wd
  obtain ⟨h1, h2, lo', hi', hlo', hhi', hcell⟩ := findOne_ok hfind
  have ho : o' < deg.ncols := by rw [← h2]; exact (List.getElem?_eq_some_iff.mp b1).1
  generalize hS : radius * (pp : Int) = S at *
  rw [wrapI32_of_mem (by omega) (by omega), i32_of_mem (by omega) (by omega)] at hlo' hhi'
  cases hlo'
  cases hhi'
  have hne : o' ≠ back := by
    obtain ⟨v, b, e1, e2, e3, e4⟩ := hcell o' ho
    have hb : b = back := by
      have : some b = some back := by rw [← e2]; exact b1
      simpa using this
    subst hb
    intro he
    by_cases hc : (i : Int) - S ≤ (o' : Int) ∧ (o' : Int) ≤ (i : Int) + S
    · obtain ⟨d, q, _, _, g⟩ := (e3 hc).out
      rw [hprev rfl] at g
      unfold dpCell at g
      cases g
      rw [i32ToUsize_neg_one] at he
      have := lt_usizeMod hN
      omega
    · have := (e4 hc).2
      omega
  rw [if_neg hne] at b5
  rw [hfp] at b5 b4
  exact ⟨first, o', r, hf0, ho, hr, b5, b3, b4⟩

end Visqol
