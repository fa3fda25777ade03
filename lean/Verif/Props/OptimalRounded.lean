import Verif.Lemmas.IeeeDp

/-! # Coarse matching in floating point: no panic (C34) and optimal (C33) -/

set_option linter.unusedSectionVars false

namespace Visqol
open Ieee
variable {F : Type} [Flt F] [Ieee F]

/-- The similarities of every patch with every stretch are finite and at most `S` in absolute value. -/
def SimilaritiesWithin (p : Profile) (S : ℝ) (rps : List (Mat F)) (deg : Mat F) : Prop :=
  ∀ (k o : Nat) m n, rps[k]? = some m → o < deg.ncols → measurePatchSimilarity p m (deg.window o m.ncols) = .ok n →
    ∃ x, val n.similarity = .fin x ∧ |x| ≤ S

theorem SimilaritiesWithin.bd {p : Profile} {S : ℝ} {rps : List (Mat F)} {deg : Mat F} {pp : Nat} (h : SimilaritiesWithin p S rps deg)
    (hr : ∀ q ∈ rps, q.ncols = pp) : ∀ m ∈ rps, SimsBd p S ((List.range deg.ncols).map fun o => deg.window o pp) m := by
  intro m hm d hd n hn
  obtain ⟨o, ho, rfl⟩ := List.mem_map.mp hd
  obtain ⟨k, hk⟩ := List.getElem?_of_mem hm
  rw [← hr m hm] at hn
  exact h k o m n hk (List.mem_range.mp ho) hn

/-- C34, in floating point: coarse matching of patches of `pp` columns does not panic (and returns no error) when the similarities are
finite, some patch is usable, the starts increase, and none is more than the search window past the end of the degraded spectrogram. -/
theorem C34_no_panic_rounded (p : Profile) {rps : List (Mat F)} {ix : List Nat} {deg : Mat F} {fd : F} {radius : Int} {nb pp : Nat} {S : ℝ}
    (hl : rps.length = ix.length) (hr : ∀ q ∈ rps, q.WF ∧ q.nrows = nb ∧ q.ncols = pp) (hnb : 0 < nb) (hpp : 0 < pp)
    (wd : deg.WF) (hd : deg.nrows = nb) (hN : 0 < deg.ncols) (hN2 : deg.ncols + pp < 9223372036854775808)
    (hrad : 0 ≤ radius) (hbig : ∀ i ∈ ix, (i : Int) + radius * pp ≤ 2147483647) (hlen : ix.length ≤ 2 ^ 50)
    (hpp2 : pp ≤ 2147483647)
    (hsorted : ix.Pairwise (· < ·)) (husable : ∃ i ∈ ix, pp / 2 ≤ i ∧ i ≤ deg.ncols + pp / 2)
    (hreach : ∀ i ∈ ix, (i : Int) - radius * pp ≤ deg.ncols) (hS0 : 1 ≤ S) (hS : S ≤ 2 ^ 850) (hsim : SimilaritiesWithin p S rps deg) :
    ∃ rs, findMostOptimalDegPatches p rps ix deg fd radius = .ok rs := by
  have hsw0 : 0 ≤ radius * pp := Int.mul_nonneg hrad (by omega)
  refine find_total p hl hr hnb hpp wd hd hN hN2 hrad hbig hpp2 hsorted husable hreach ?_
  intro rows hrows k r hk
  refine (dpRows_ieee hS0 hS hrows (by rw [List.length_zip]; omega) (fun x hx => ?_)
    (fun x hx => ⟨_, (i32_window (p := p) hsw0 (hbig _ (List.of_mem_zip hx).2)).1⟩) k r hk).2.2.2
  exact hsim.bd (fun q hq => (hr q hq).2.2) _ (List.of_mem_zip hx).1

/-! ## C33 -/

theorem runningTotal_concat (s : Nat → Nat → F) (c : List (Option Nat)) (x : Option Nat) :
    runningTotal s (c ++ [x]) = match x, runningTotal s c with
      | none, t => t
      | some o, none => some (s c.length o)
      | some o, some t => some (s c.length o + t) := by
  unfold runningTotal
  rw [List.zipIdx_append, List.foldl_append]
  simp only [List.zipIdx_cons, List.zipIdx_nil, List.foldl_cons, List.foldl_nil, Nat.zero_add]
  generalize List.foldl _ _ c.zipIdx = t
  cases x <;> cases t <;> rfl

/-- The tables bound the total of every admissible choice. -/
theorem value_upper_ieee {N n : Nat} {s V : Nat → Nat → F} {S : ℝ} (hS0 : 1 ≤ S) (hS : S ≤ 2 ^ 900) (hn : n ≤ 2 ^ 50)
    (hsb : ∀ k o, k < n → o < N → Bd S (s k o)) (hVb : ∀ k o, k < n → o < N → Bd (grow S (k + 1)) (V k o))
    (h0 : ∀ o < N, V 0 o = s 0 o)
    (hs : ∀ k o, k + 1 < n → o < N → Flt.lt (V (k + 1) o) (V k o) = false ∧ ∀ j < o, Flt.lt (V (k + 1) o) (s (k + 1) o + V k j) = false) :
    ∀ (k : Nat) (c : List (Option Nat)), k < n → c.length = k + 1 → Admissible N c →
      ∃ o t x y, (c.filterMap id).getLast? = some o ∧ o < N ∧ runningTotal s c = some t ∧ Is t x ∧ |x| ≤ grow S (k + 1) ∧
        Is (V k o) y ∧ x ≤ y
  | 0, c, hk, hc, hA => by
    obtain ⟨o, ho⟩ := hA.first
    obtain ⟨x, rfl⟩ : ∃ x, c = [x] := by
      match c, hc with
      | [x], _ => exact ⟨x, rfl⟩
    simp only [List.getElem?_cons_zero, Option.some.injEq] at ho
    subst ho
    have hN := hA.inside o (by simp)
    obtain ⟨y, hy1, hy2⟩ := hVb 0 o hk hN
    refine ⟨o, s 0 o, y, y, rfl, hN, rfl, ?_, hy2, hy1, le_rfl⟩
    rw [← h0 o hN]; exact hy1
  | k + 1, c, hk, hc, hA => by
    obtain ⟨c', x, rfl⟩ : ∃ c' x, c = c' ++ [x] :=
      ⟨c.dropLast, c.getLast (by intro h; rw [h] at hc; simp at hc), (List.dropLast_append_getLast _).symm⟩
    have hc' : c'.length = k + 1 := by simpa using hc
    have hA' : Admissible N c' := by
      refine ⟨?_, ?_, ?_⟩
      · have := hA.order
        unfold InOrder at this ⊢
        rw [List.filterMap_append, List.pairwise_append] at this
        exact this.1
      · intro o ho
        exact hA.inside o (by rw [List.filterMap_append]; exact List.mem_append_left _ ho)
      · obtain ⟨o, ho⟩ := hA.first
        rw [List.getElem?_append_left (by omega)] at ho
        exact ⟨o, ho⟩
    obtain ⟨o, t, x0, y0, h1, h2, h3, h4, h5, h6, h7⟩ := value_upper_ieee hS0 hS hn hsb hVb h0 hs k c' (by omega) hc' hA'
    rw [runningTotal_concat, hc', h3]
    cases x with
    | none =>
      obtain ⟨y, hy1, _⟩ := hVb (k + 1) o hk h2
      have h8 := (hs k o hk h2).1
      rw [Is.lt hy1 h6, decide_eq_false_iff_not, not_lt] at h8
      refine ⟨o, t, x0, y, ?_, h2, rfl, h4, h5.trans (grow_mono (by linarith) (by omega)), hy1, h7.trans h8⟩
      rw [List.filterMap_append]; simpa using h1
    | some j =>
      have hj : j < N := hA.inside j (by rw [List.filterMap_append]; simp)
      have hoj : o < j := by
        have := hA.order
        unfold InOrder at this
        rw [List.filterMap_append, List.pairwise_append] at this
        exact this.2.2 o (List.mem_of_getLast? h1) j (by simp)
      obtain ⟨y, hy1, _⟩ := hVb (k + 1) j hk hj
      obtain ⟨z, hz1, hz2⟩ := hsb (k + 1) j hk hj
      obtain ⟨w, hw1, hw2⟩ := hVb k o (by omega) h2
      rw [Is, h6] at hw1
      cases hw1
      obtain ⟨u, hu1, hu2⟩ := grow_step (F := F) hS0 hS (by omega) h5 hz2
      obtain ⟨v, hv1, _⟩ := grow_step (F := F) hS0 hS (by omega) hw2 hz2
      have hu : Is (s (k + 1) j + t) u := (Is.add hz1 h4).trans (by rw [add_comm]; exact hu1)
      have hv : Is (s (k + 1) j + V k o) v := (Is.add hz1 h6).trans (by rw [add_comm]; exact hv1)
      have h8 := (hs k j hk hj).2 o hoj
      rw [Is.lt hy1 hv, decide_eq_false_iff_not, not_lt] at h8
      refine ⟨j, _, u, y, ?_, hj, rfl, hu, hu2, hy1, ?_⟩
      · rw [List.filterMap_append]; simp
      · exact (rnd_mono (F := F) (x0 + z) (y0 + z) u v (by linarith) hu1 hv1).trans h8

/-- The back trace attains the value of the table. -/
theorem backtrack_value_ieee {p : Profile} {deg : Mat F} {fd pd : F} (wd : deg.WF) (hnc : deg.ncols < usizeMod) {s V : Nat → Nat → F}
    {items : List (Mat F × Nat × List Nat)} {n : Nat} (hn : n ≤ items.length)
    (hbt : ∀ x ∈ items, x.2.2.length = deg.ncols)
    (h0 : ∀ x, items[0]? = some x → ∀ o < deg.ncols, V 0 o = s 0 o ∧ x.2.2[o]? = some (usizeMod - 1))
    (hstep : ∀ (k : Nat) x, k + 1 < n → items[k + 1]? = some x → ∀ o < deg.ncols, ∃ b, x.2.2[o]? = some b ∧ b ≤ o ∧
      (b = o → V (k + 1) o = V k o) ∧ (b < o → V (k + 1) o = s (k + 1) o + V k b)) :
    ∀ (k : Nat), k < n → ∀ (o : Nat) (rs : List (PatchSim F)), o < deg.ncols →
      backtrack p deg fd pd ((items.take (k + 1)).reverse) o = .ok rs →
      ∃ c : List (Option Nat), c.length = k + 1 ∧ rs.length = k + 1 ∧ Admissible deg.ncols c ∧ (∀ j ∈ c.filterMap id, j ≤ o) ∧
        runningTotal s c = some (V k o) ∧
        ∀ j < k + 1, ∃ r x y, rs[j]? = some r ∧ c[j]? = some x ∧ items[j]? = some y ∧ Reports p deg y.1 fd pd r x
  | k, hk, o, rs, ho, h => by
    have hkl : k < items.length := by omega
    have htake : (items.take (k + 1)).reverse = items[k] :: (items.take k).reverse := by
      rw [List.take_succ_eq_append_getElem hkl, List.reverse_append]; rfl
    rw [htake] at h
    have hgk := List.getElem?_eq_getElem hkl
    generalize items[k] = it at h hgk
    obtain ⟨m, i, bt⟩ := it
    unfold backtrack at h
    obtain ⟨⟨r, back⟩, h1, h⟩ := bind_ok h
    obtain ⟨rs', h2, h⟩ := bind_ok h
    cases h
    obtain ⟨b1, b2, _, _, b5⟩ := backtraceStep_reports h1 wd
    cases k with
    | zero =>
      cases h2
      obtain ⟨e1, e2⟩ := h0 _ hgk o ho
      dsimp only at e2
      rw [b1] at e2
      cases e2
      rw [if_neg (by unfold usizeMod at *; omega)] at b5
      refine ⟨[some o], rfl, rfl, ⟨by simp [InOrder], by simpa using ho, ⟨o, rfl⟩⟩, by simp, by rw [e1]; rfl, ?_⟩
      intro j hj
      obtain rfl : j = 0 := by omega
      exact ⟨r, some o, _, rfl, rfl, hgk, b5⟩
    | succ k =>
      obtain ⟨b, f1, f2, f3, f4⟩ := hstep k _ hk hgk o ho
      dsimp only at f1
      rw [b1] at f1
      cases f1
      obtain ⟨c, c1, c2, c3, c4, c5, c7⟩ := backtrack_value_ieee wd hnc hn hbt h0 hstep k (by omega) back rs' (by omega) h2
      refine ⟨c ++ [if o = back then none else some o], by simp [c1], by simp [c2], ⟨?_, ?_, ?_⟩, ?_, ?_, ?_⟩
      · unfold InOrder
        rw [List.filterMap_append, List.pairwise_append]
        refine ⟨c3.order, ?_, ?_⟩
        · split <;> simp
        · intro a ha b hb
          have := c4 a ha
          split at hb
          · simp at hb
          · simp at hb; omega
      · intro j hj
        rw [List.filterMap_append, List.mem_append] at hj
        rcases hj with hj | hj
        · exact c3.inside j hj
        · split at hj
          · simp at hj
          · simp at hj; omega
      · obtain ⟨o', ho'⟩ := c3.first
        exact ⟨o', by rw [List.getElem?_append_left (by omega)]; exact ho'⟩
      · intro j hj
        rw [List.filterMap_append, List.mem_append] at hj
        rcases hj with hj | hj
        · have := c4 j hj; omega
        · split at hj
          · simp at hj
          · simp at hj; omega
      · rw [runningTotal_concat, c5, c1]
        by_cases hb : o = back
        · rw [if_pos hb, f3 hb.symm, hb]
        · rw [if_neg hb, f4 (by omega)]
      · intro j hj
        by_cases hjk : j < k + 1
        · obtain ⟨r', x', y', g1, g2, g3, g4⟩ := c7 j hjk
          refine ⟨r', x', y', ?_, ?_, g3, g4⟩
          · rw [List.getElem?_append_left (by omega)]; exact g1
          · rw [List.getElem?_append_left (by omega)]; exact g2
        · obtain rfl : j = k + 1 := by omega
          refine ⟨r, _, _, ?_, ?_, hgk, b5⟩
          · rw [List.getElem?_append_right (by omega)]; simp [c2]
          · rw [List.getElem?_append_right (by omega)]; simp [c1]

/-- C33, in floating point: when the search window covers the whole degraded spectrogram for every patch, the reported matches are an
admissible choice (in order; a match for the first patch), and no admissible choice has a larger total, where totals are formed by
adding the similarities one after the other in floating point. -/
theorem C33_optimal_rounded {p : Profile} {rps : List (Mat F)} {ix : List Nat} {deg : Mat F} {fd : F} {radius : Int}
    {rs : List (PatchSim F)} {nb pp : Nat} {S : ℝ} (h : findMostOptimalDegPatches p rps ix deg fd radius = .ok rs)
    (hl : rps.length = ix.length) (hr : ∀ q ∈ rps, q.WF ∧ q.nrows = nb ∧ q.ncols = pp)
    (wd : deg.WF) (hN2 : deg.ncols + pp < 9223372036854775808) (hpp2 : pp ≤ 2147483647)
    (hlen : ix.length ≤ 2 ^ 50) (hbig : ∀ i ∈ ix, (i : Int) + radius * pp ≤ 2147483647)
    (hcover : ∀ i ∈ ix, (i : Int) ≤ radius * pp ∧ (deg.ncols : Int) ≤ i + radius * pp + 1)
    (hS0 : 1 ≤ S) (hS : S ≤ 2 ^ 850) (hsim : SimilaritiesWithin p S rps deg) :
    ∃ (c : List (Option Nat)) (t : F), c.length = rs.length ∧ Admissible deg.ncols c ∧
      (∀ j < rs.length, ∃ r x m, rs[j]? = some r ∧ c[j]? = some x ∧ rps[j]? = some m ∧
        Reports p deg m fd (fd * Flt.ofNat pp) r x) ∧
      runningTotal (simAt p rps deg) c = some t ∧ (∃ x, val t = .fin x) ∧
      ∀ c', c'.length = rs.length → Admissible deg.ncols c' →
        ∃ t', runningTotal (simAt p rps deg) c' = some t' ∧ (∃ x, val t' = .fin x) ∧ Flt.lt t t' = false := by
  have hrs := find_calcMax h hl (fun q hq => (hr q hq).2.2)
  have hS9 : S ≤ 2 ^ 900 := hS.trans (two_pow_mono (by norm_num))
  have hsbd := hsim.bd (fun q hq => (hr q hq).2.2)
  unfold findMostOptimalDegPatches at h
  obtain ⟨first, hf, h⟩ := bind_ok h
  obtain ⟨sw, hsw, h⟩ := bind_ok h
  obtain ⟨n, hn, h⟩ := bind_ok h
  have hfp : first.ncols = pp := (hr _ (List.mem_of_getElem? (idx_ok hf))).2.2
  rw [hfp] at h hn hsw
  have hpos := calcMaxLoop_le hrs
  have hix0 : 0 < ix.length := by omega
  have hi0 := hcover _ (List.getElem_mem hix0)
  have hi1 := hbig _ (List.getElem_mem hix0)
  rw [wrapI32_of_mem (z := (pp : Int)) (by omega) (by omega), i32_of_mem (by omega) (by omega)] at hsw
  cases hsw
  have hsw0 : 0 ≤ radius * (pp : Int) := by omega
  generalize hsw : radius * (pp : Int) = sw at *
  unfold calcMaxNumPatches at hn
  rw [if_neg (by omega), hrs] at hn
  cases hn
  rw [if_neg (by omega)] at h
  generalize hnn : rs.length = n at *
  have hum : deg.ncols + pp < usizeMod := lt_usizeMod hN2
  rw [bind_of_ok (mapE_of_forall (g := fun o => deg.window o pp) (fun o ho => by
    have := List.mem_range.mp ho
    exact buildDegradedPatch_window wd (by omega) (by omega)))] at h
  generalize hdps : (List.range deg.ncols).map (fun o => deg.window o pp) = dps at h hsbd
  have hdg : ∀ o < deg.ncols, dps[o]? = some (deg.window o pp) := by
    intro o ho
    rw [← hdps, List.getElem?_map, List.getElem?_range ho]; rfl
  obtain ⟨rows, hrows, h⟩ := bind_ok h
  obtain ⟨li, hli, h⟩ := bind_ok h
  have hli := idx_ok hli
  have hbn := hbig _ (List.mem_of_getElem? hli)
  have hcn := hcover _ (List.mem_of_getElem? hli)
  have hus : i32ToUsize sw = sw.toNat := i32ToUsize_nonneg hsw0
  rw [bind_of_ok (i32_window (p := p) hsw0 hbn).1, hus, bind_of_ok (uadd_of_lt (lt_usizeMod (by omega))),
    bind_of_ok (uadd_of_lt (lt_usizeMod (by omega)))] at h
  obtain ⟨lr, hlr, h⟩ := bind_ok h
  have hlr := idx_ok hlr
  obtain ⟨best, hbest, h⟩ := bind_ok h
  have hrl := dpRows_length _ _ _ hrows
  rw [List.length_zip] at hrl
  have hrr := dpRows_ieee hS0 hS hrows (by rw [List.length_zip]; omega) (fun x hx => hsbd _ (List.of_mem_zip hx).1)
    (fun x hx => ⟨_, (i32_window (p := p) hsw0 (hbig _ (List.of_mem_zip hx).2)).1⟩)
  -- the table as a function
  let V : Nat → Nat → F := fun k o => ((rows.getD k ([], [])).1).getD o 0.0
  have hV : ∀ (k o : Nat) r v, rows[k]? = some r → r.1[o]? = some v → V k o = v := by
    intro k o r v h1 h2
    simp only [V, List.getD_eq_getElem?_getD, h1, Option.getD_some, h2]
  have hsimAt : ∀ (k o : Nat) m q, rps[k]? = some m → measurePatchSimilarity p m (deg.window o m.ncols) = .ok q →
      q.similarity = simAt p rps deg k o := by
    intro k o m q h1 h2
    unfold simAt
    rw [h1]
    simp only [h2]
  have hcell : ∀ k (hk : k < ix.length), ∃ r prev, rows[k]? = some r ∧ (k = 0 → prev = none) ∧
      (∀ j, k = j + 1 → ∃ m' i' r', (rps.zip ix)[j]? = some (m', i') ∧ rows[j]? = some r' ∧ prev = some (i', r'.1)) ∧
      ∀ o < deg.ncols, ∃ v b, r.1[o]? = some v ∧ r.2[o]? = some b ∧ Bd S (simAt p rps deg k o) ∧
        dpCell p prev sw o (simAt p rps deg k o) = .ok (v, b) := by
    intro k hk
    have hkz : k < (rps.zip ix).length := by rw [List.length_zip]; omega
    obtain ⟨r, e1, prev, e2, e3, e4⟩ := dpRows_get _ _ _ hrows k rps[k] ix[k] (by
      rw [List.getElem?_eq_getElem hkz, List.getElem_zip])
    refine ⟨r, prev, e1, e3, e4, fun o ho => ?_⟩
    obtain ⟨_, _, lo, hi, g1, g2, g3⟩ := findOne_ok (row := r.1) (bt := r.2) e2
    have hb := hbig _ (List.getElem_mem hk)
    have hc := hcover _ (List.getElem_mem hk)
    obtain ⟨w1, w2⟩ := i32_window (p := p) hsw0 hb
    rw [w1] at g1; cases g1
    rw [w2] at g2; cases g2
    obtain ⟨v, b, k1, k2, k3, _⟩ := g3 o ho
    obtain ⟨d, q, q1, q2, q3⟩ := (k3 ⟨by omega, by omega⟩).out
    rw [hdg o ho] at q1
    cases q1
    have hm := hr rps[k] (List.getElem_mem (by omega))
    have hq2 := q2
    rw [show deg.window o pp = deg.window o rps[k].ncols by rw [hm.2.2]] at hq2
    rw [← hsimAt k o rps[k] q (List.getElem?_eq_getElem (by omega)) hq2]
    exact ⟨v, b, k1, k2, hsim k o rps[k] q (List.getElem?_eq_getElem (by omega)) ho hq2, q3⟩
  have hVbd : ∀ k o, k < ix.length → o < deg.ncols → Bd (grow S (k + 1)) (V k o) := by
    intro k o hk ho
    obtain ⟨r, _, e1, _, _, e4⟩ := hcell k hk
    obtain ⟨v, _, k1, _⟩ := e4 o ho
    rw [hV _ _ _ _ e1 k1]
    exact (hrr k r e1).1 v (List.mem_of_getElem? k1)
  have hzero : ∀ r, rows[0]? = some r → ∀ o < deg.ncols, V 0 o = simAt p rps deg 0 o ∧ r.2[o]? = some (usizeMod - 1) := by
    intro r0 hr0 o ho
    obtain ⟨r, prev, e1, e2, _, e4⟩ := hcell 0 hix0
    rw [hr0] at e1; cases e1
    obtain ⟨v, b, k1, k2, _, k4⟩ := e4 o ho
    rw [e2 rfl] at k4
    cases k4
    exact ⟨hV 0 o _ _ hr0 k1, k2⟩
  have hsucc : ∀ k, k + 1 < ix.length → ∀ r, rows[k + 1]? = some r → ∀ o < deg.ncols, ∃ b, r.2[o]? = some b ∧ b ≤ o ∧
      (b = o → V (k + 1) o = V k o) ∧ (b < o → V (k + 1) o = simAt p rps deg (k + 1) o + V k b) ∧
      Flt.lt (V (k + 1) o) (V k o) = false ∧
      ∀ j < o, Flt.lt (V (k + 1) o) (simAt p rps deg (k + 1) o + V k j) = false := by
    intro k hk r1 hr1 o ho
    obtain ⟨r, prev, e1, _, e3, e4⟩ := hcell (k + 1) hk
    rw [hr1] at e1; cases e1
    obtain ⟨v, b, k1, k2, k3, k4⟩ := e4 o ho
    obtain ⟨m', i', r', f1, f2, f3⟩ := e3 k rfl
    rw [f3] at k4
    have hi' := (List.of_mem_zip (List.mem_of_getElem? f1)).2
    obtain ⟨bb, bl, _, _⟩ := hrr k r' f2
    obtain ⟨same, s1, s2, _, s5, s6, s3, s7⟩ := dpCell_ieee hS0 hS (by omega) bb k3 (i32_window (p := p) hsw0 (hbig _ hi')).1 k4
    have hc := hcover _ hi'
    refine ⟨b, k2, s2, ?_, ?_, ?_, ?_⟩
    · intro he
      rw [hV _ _ _ _ hr1 k1, hV _ _ _ _ f2 s1, s5 he]
    · intro hlt
      obtain ⟨_, x, x1, x2, _⟩ := s6 hlt
      rw [hV _ _ _ _ hr1 k1, hV _ _ _ _ f2 x1, x2]
    · rw [hV _ _ _ _ hr1 k1, hV _ _ _ _ f2 s1]; exact s3
    · intro j hj
      have hjl : j < r'.1.length := by omega
      have := s7 j _ hj (by omega) (List.getElem?_eq_getElem hjl)
      rw [hV _ _ _ _ hr1 k1, hV _ _ _ _ f2 (List.getElem?_eq_getElem hjl)]
      exact this
  -- the chosen end
  have hboth : best.2 < deg.ncols ∧ ∀ o < deg.ncols, ∀ x y, Is (V (n - 1) o) x → Is (V (n - 1) best.2) y → x ≤ y := by
    obtain ⟨lb, ll, _, _⟩ := hrr (n - 1) lr hlr
    obtain ⟨M, hM, hM2⟩ := minVal_below (F := F)
    obtain ⟨z, b1, _, b2, b3⟩ := lastOffsetScan_val (fun a ha => (lb a ha).val) _ _ _ M hM hbest
    have hmem : ∀ o < deg.ncols, o ∈ lastOffsets (max 0 ((li : Int) - sw)).toNat (li + sw.toNat + 1) deg.ncols := by
      intro o ho
      unfold lastOffsets
      exact List.mem_map.mpr ⟨o, List.mem_range.mpr (by omega), by omega⟩
    have hNpos : 0 < deg.ncols := by
      by_contra hc
      have hz : deg.ncols = 0 := by omega
      have hlast : (rps.zip (ix.zip (rows.map Prod.snd))).take n ≠ [] := by
        intro hcon
        have hcl : ((rps.zip (ix.zip (rows.map Prod.snd))).take n).length = 0 := by rw [hcon]; rfl
        rw [List.length_take, List.length_zip, List.length_zip, List.length_map, hrl, hl] at hcl
        omega
      have hrev : ((rps.zip (ix.zip (rows.map Prod.snd))).take n).reverse ≠ [] := by simpa using hlast
      obtain ⟨⟨m, i, bt⟩, l, hl'⟩ := List.exists_cons_of_ne_nil hrev
      rw [hl'] at h
      obtain ⟨⟨r, back⟩, h1, _⟩ := bind_ok h
      obtain ⟨q1, _⟩ := backtraceStep_reports h1 wd
      have hmm : (m, i, bt) ∈ rps.zip (ix.zip (rows.map Prod.snd)) :=
        List.mem_of_mem_take (List.mem_reverse.mp (by rw [hl']; simp))
      obtain ⟨r2, hr2, hr3⟩ := List.mem_map.mp (List.of_mem_zip (List.of_mem_zip hmm).2).2
      obtain ⟨j, hj⟩ := List.getElem?_of_mem hr2
      have hl0 := (hrr j r2 hj).2.2.1
      rw [hr3, hz] at hl0
      have hl1 := (List.getElem?_eq_some_iff.mp q1).1
      rw [hl0] at hl1
      exact absurd hl1 (Nat.not_lt_zero _)
    have hval : ∀ o < deg.ncols, ∃ v, lr.1[o]? = some v ∧ V (n - 1) o = v := by
      intro o ho
      have hol : o < lr.1.length := by omega
      exact ⟨_, List.getElem?_eq_getElem hol, hV _ _ _ _ hlr (List.getElem?_eq_getElem hol)⟩
    rcases b3 with b3 | ⟨b3, b4⟩
    · exfalso
      obtain ⟨v, hv, _⟩ := hval 0 hNpos
      obtain ⟨x, h2, h3⟩ := lb v (List.mem_of_getElem? hv)
      have h1 := b2 0 (hmem 0 hNpos) v x hv h2
      rw [b3] at b1
      rw [Is, hM] at b1
      cases b1
      have h4 := abs_le.mp (h3.trans (grow_905 hS0 hS (by omega)))
      have h9 : (2 : ℝ) ^ 905 < 2 ^ 1000 := pow_lt_pow_right₀ (by norm_num) (by norm_num)
      have h5 := h4.1
      clear h4 h3 hS hS9
      generalize (2 : ℝ) ^ 905 = A at *
      generalize (2 : ℝ) ^ 1000 = B at *
      linarith
    · have hbl : best.2 < deg.ncols := by
        rw [← ll]; exact (List.getElem?_eq_some_iff.mp b4).1
      refine ⟨hbl, fun o ho x y hx hy => ?_⟩
      obtain ⟨v, hv, e⟩ := hval o ho
      rw [e] at hx
      rw [hV _ _ _ _ hlr b4] at hy
      rw [Is, b1] at hy
      cases hy
      exact b2 o (hmem o ho) v x hv hx
  obtain ⟨hbo, hbmax⟩ := hboth
  have hitems : ∀ (k : Nat) x, (rps.zip (ix.zip (rows.map Prod.snd)))[k]? = some x → ∃ r, rows[k]? = some r ∧ x.2.2 = r.2 ∧
      rps[k]? = some x.1 ∧ k < ix.length := by
    intro k x hk
    have hkl := (List.getElem?_eq_some_iff.mp hk).1
    rw [List.length_zip, List.length_zip, List.length_map] at hkl
    have he := (List.getElem?_eq_some_iff.mp hk).2
    refine ⟨rows[k]'(by omega), List.getElem?_eq_getElem _, ?_, ?_, by omega⟩
    · rw [← he, List.getElem_zip, List.getElem_zip, List.getElem_map]
    · rw [List.getElem?_eq_getElem (by omega), ← he, List.getElem_zip]
  have hnl : n ≤ (rps.zip (ix.zip (rows.map Prod.snd))).length := by
    rw [List.length_zip, List.length_zip, List.length_map]; omega
  obtain ⟨c, c1, c2, c3, _, c5, c7⟩ := backtrack_value_ieee (s := simAt p rps deg) (V := V) wd (by omega) hnl (by
      intro x hx
      obtain ⟨k, hk⟩ := List.getElem?_of_mem hx
      obtain ⟨r, r1, r2, _⟩ := hitems k x hk
      rw [r2]; exact (hrr k r r1).2.2.1) (by
      intro x hx o ho
      obtain ⟨r, r1, r2, _⟩ := hitems 0 x hx
      rw [r2]; exact hzero r r1 o ho) (by
      intro k x _ hx o ho
      obtain ⟨r, r1, r2, _, r4⟩ := hitems (k + 1) x hx
      rw [r2]
      obtain ⟨b, q1, q2, q3, q4, _⟩ := hsucc k r4 r r1 o ho
      exact ⟨b, q1, q2, q3, q4⟩) (n - 1) (by omega) best.2 rs hbo (by
      rw [show n - 1 + 1 = n by omega]; exact h)
  obtain ⟨y, hy, _⟩ := hVbd (n - 1) best.2 (by omega) hbo
  refine ⟨c, _, by omega, c3, ?_, c5, ⟨y, hy⟩, ?_⟩
  · intro j hj
    obtain ⟨r, x, y, g1, g2, g3, g4⟩ := c7 j (by omega)
    exact ⟨r, x, _, g1, g2, (hitems j y g3).choose_spec.2.2.1, g4⟩
  · intro c' hc' hA
    obtain ⟨o, t, x, z, _, ho, ht, hx, _, hz, hle⟩ := value_upper_ieee (N := deg.ncols) (n := ix.length) (s := simAt p rps deg) (V := V)
      hS0 hS9 hlen
      (fun k o hk ho => by
        obtain ⟨_, _, _, _, _, e4⟩ := hcell k hk
        obtain ⟨_, _, _, _, k3, _⟩ := e4 o ho
        exact k3) hVbd
      (fun o ho => by
        have : 0 < rows.length := by omega
        exact (hzero _ (List.getElem?_eq_getElem this) o ho).1)
      (fun k o hk ho => by
        have hk1 : k + 1 < rows.length := by omega
        obtain ⟨b, _, _, _, _, q5, q6⟩ := hsucc k hk _ (List.getElem?_eq_getElem hk1) o ho
        exact ⟨q5, q6⟩) (n - 1) c' (by omega) (by omega) hA
    refine ⟨t, ht, ⟨x, hx⟩, ?_⟩
    rw [Is.lt hy hx, decide_eq_false]
    exact not_lt.mpr (hle.trans (hbmax o ho z y hz hy))

end Visqol
