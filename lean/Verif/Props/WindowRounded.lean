import Verif.Props.Window
import Verif.Props.OptimalRounded
import Verif.Props.SelfRounded

/-! # Coarse matching of long signals, in floating point (C72) -/

set_option linter.unusedSectionVars false

namespace Visqol
open Ieee
variable {F : Type} [Flt F] [Ieee F]

/-- The tables bound the running total of every choice within the windows. -/
theorem window_upper_ieee {ix : List Nat} {sw N n : Nat} {s V : Nat → Nat → F} {S : ℝ} (hS0 : 1 ≤ S) (hS : S ≤ 2 ^ 900) (hn : n ≤ 2 ^ 50)
    (hsb : ∀ k o, k < n → InWindow ix sw N k o → Bd S (s k o))
    (hVb : ∀ k o, k < n → InWindow ix sw N k o → Bd (grow S (k + 1)) (V k o))
    (h0 : ∀ o, InWindow ix sw N 0 o → V 0 o = s 0 o)
    (hs : ∀ k o, k + 1 < n → InWindow ix sw N (k + 1) o → (InWindow ix sw N k o → Flt.lt (V (k + 1) o) (V k o) = false) ∧
      ∀ j < o, InWindow ix sw N k j → Flt.lt (V (k + 1) o) (s (k + 1) o + V k j) = false) :
    ∀ (k : Nat) (c : List (Option Nat)), k < n → c.length = k + 1 → Within ix sw N c →
      ∃ o t x y, latest c = some o ∧ InWindow ix sw N k o ∧ runningTotal s c = some t ∧ Is t x ∧ |x| ≤ grow S (k + 1) ∧
        Is (V k o) y ∧ x ≤ y
  | 0, c, hk, hc, hA => by
    obtain ⟨x, rfl⟩ : ∃ x, c = [x] := by
      match c, hc with
      | [x], _ => exact ⟨x, rfl⟩
    obtain ⟨o, h1, h2⟩ := hA.window 0 (by simp)
    obtain rfl : x = some o := by cases x <;> simp_all [latest]
    obtain ⟨y, hy1, hy2⟩ := hVb 0 o hk h2
    refine ⟨o, s 0 o, y, y, rfl, h2, rfl, ?_, hy2, hy1, le_rfl⟩
    rw [← h0 o h2]; exact hy1
  | k + 1, c, hk, hc, hA => by
    obtain ⟨c', x, rfl⟩ : ∃ c' x, c = c' ++ [x] :=
      ⟨c.dropLast, c.getLast (by intro h; rw [h] at hc; simp at hc), (List.dropLast_append_getLast _).symm⟩
    have hc' : c'.length = k + 1 := by simpa using hc
    obtain ⟨o, t, x0, y0, h1, h2, h3, h4, h5, h6, h7⟩ := window_upper_ieee hS0 hS hn hsb hVb h0 hs k c' (by omega) hc' hA.init
    obtain ⟨o', g1, g2⟩ := hA.window (k + 1) (by simp [hc'])
    rw [List.take_of_length_le (by simp [hc'])] at g1
    have g1' := g1
    rw [latest_concat, h1] at g1
    rw [runningTotal_concat, hc', h3]
    obtain ⟨y, hy1, _⟩ := hVb (k + 1) o' hk g2
    cases x with
    | none =>
      obtain rfl : o = o' := by simpa using g1
      have h8 := (hs k o hk g2).1 h2
      rw [Is.lt hy1 h6, decide_eq_false_iff_not, not_lt] at h8
      exact ⟨o, t, x0, y, g1', g2, rfl, h4, h5.trans (grow_mono (by linarith) (by omega)), hy1, h7.trans h8⟩
    | some j =>
      obtain rfl : j = o' := by simpa using g1
      have hoj : o < j := by
        have := hA.order
        unfold InOrder at this
        rw [List.filterMap_append, List.pairwise_append] at this
        exact this.2.2 o (List.mem_of_getLast? h1) j (by simp)
      obtain ⟨z, hz1, hz2⟩ := hsb (k + 1) j hk g2
      obtain ⟨w, hw1, hw2⟩ := hVb k o (by omega) h2
      rw [Is, h6] at hw1
      cases hw1
      obtain ⟨u, hu1, hu2⟩ := grow_step (F := F) hS0 hS (by omega) h5 hz2
      obtain ⟨v, hv1, _⟩ := grow_step (F := F) hS0 hS (by omega) hw2 hz2
      have hu : Is (s (k + 1) j + t) u := (Is.add hz1 h4).trans (by rw [add_comm]; exact hu1)
      have hv : Is (s (k + 1) j + V k o) v := (Is.add hz1 h6).trans (by rw [add_comm]; exact hv1)
      have h8 := (hs k j hk g2).2 o hoj h2
      rw [Is.lt hy1 hv, decide_eq_false_iff_not, not_lt] at h8
      refine ⟨j, _, u, y, g1', g2, rfl, hu, hu2, hy1, ?_⟩
      exact (rnd_mono (F := F) (x0 + z) (y0 + z) u v (by linarith) hu1 hv1).trans h8

/-- The back trace stays in the windows and attains the value of the table. -/
theorem backtrack_window_ieee {p : Profile} {deg : Mat F} {fd pd : F} (wd : deg.WF) (hnc : deg.ncols < usizeMod) {ix : List Nat} {sw : Nat}
    {s V : Nat → Nat → F} {items : List (Mat F × Nat × List Nat)} {n : Nat} (hn : n ≤ items.length)
    (h0 : ∀ x, items[0]? = some x → ∀ o, InWindow ix sw deg.ncols 0 o → V 0 o = s 0 o ∧ x.2.2[o]? = some (usizeMod - 1))
    (hstep : ∀ (k : Nat) x, k + 1 < n → items[k + 1]? = some x → ∀ o, InWindow ix sw deg.ncols (k + 1) o →
      ∃ b, x.2.2[o]? = some b ∧ b ≤ o ∧ InWindow ix sw deg.ncols k b ∧
      (b = o → V (k + 1) o = V k o) ∧ (b < o → V (k + 1) o = s (k + 1) o + V k b)) :
    ∀ (k : Nat), k < n → ∀ (o : Nat) (rs : List (PatchSim F)), InWindow ix sw deg.ncols k o →
      backtrack p deg fd pd ((items.take (k + 1)).reverse) o = .ok rs →
      ∃ c : List (Option Nat), c.length = k + 1 ∧ rs.length = k + 1 ∧ Within ix sw deg.ncols c ∧ latest c = some o ∧
        (∀ j ∈ c.filterMap id, j ≤ o) ∧ runningTotal s c = some (V k o) ∧
        ∀ j < k + 1, ∃ r x y, rs[j]? = some r ∧ c[j]? = some x ∧ items[j]? = some y ∧ Reports p deg y.1 fd pd r x
  | k, hk, o, rs, ho, h => by
    have hoN : o < deg.ncols := ho.choose_spec.2.2.2
    have hkl : k < items.length := by omega
    have htake : (items.take (k + 1)).reverse = items[k] :: (items.take k).reverse := by
      rw [List.take_succ_eq_append_getElem hkl, List.reverse_append]; rfl
    rw [htake] at h
    have hgk := List.getElem?_eq_getElem hkl
    generalize items[k] = it at h hgk
    obtain ⟨m, i, bt⟩ := it
    unfold backtrack at h
    obtain ⟨⟨r, back⟩, h1, h⟩ := bind_ok h
    obtain ⟨rs', h2, h⟩ := bind_ok h
    cases h
    obtain ⟨b1, b2, _, _, b5⟩ := backtraceStep_reports h1 wd
    cases k with
    | zero =>
      cases h2
      obtain ⟨e1, e2⟩ := h0 _ hgk o ho
      dsimp only at e2
      rw [b1] at e2
      cases e2
      rw [if_neg (by unfold usizeMod at *; omega)] at b5
      refine ⟨[some o], rfl, rfl, ⟨by simp [InOrder], fun k hk => ?_⟩, rfl, by simp, by rw [e1]; rfl, ?_⟩
      · obtain rfl : k = 0 := by simpa using hk
        exact ⟨o, rfl, ho⟩
      · intro j hj
        obtain rfl : j = 0 := by omega
        exact ⟨r, some o, _, rfl, rfl, hgk, b5⟩
    | succ k =>
      obtain ⟨b, f1, f2, f5, f3, f4⟩ := hstep k _ hk hgk o ho
      dsimp only at f1
      rw [b1] at f1
      cases f1
      obtain ⟨c, c1, c2, c3, c8, c4, c5, c7⟩ := backtrack_window_ieee wd hnc hn h0 hstep k (by omega) back rs' f5 h2
      have hlat : latest (c ++ [if o = back then none else some o]) = some o := by
        rw [latest_concat, c8]
        split
        · rename_i he; simp [he]
        · simp
      refine ⟨c ++ [if o = back then none else some o], by simp [c1], by simp [c2], ⟨?_, fun k' hk' => ?_⟩, hlat, ?_, ?_, ?_⟩
      · unfold InOrder
        rw [List.filterMap_append, List.pairwise_append]
        refine ⟨c3.order, ?_, ?_⟩
        · split <;> simp
        · intro a ha b hb
          have := c4 a ha
          split at hb
          · simp at hb
          · simp at hb; omega
      · by_cases hkk : k' < k + 1
        · rw [List.take_append_of_le_length (by omega)]
          exact c3.window k' (by omega)
        · obtain rfl : k' = k + 1 := by simp [c1] at hk'; omega
          rw [List.take_of_length_le (by simp [c1])]
          exact ⟨o, hlat, ho⟩
      · intro j hj
        rw [List.filterMap_append, List.mem_append] at hj
        rcases hj with hj | hj
        · have := c4 j hj; omega
        · split at hj
          · simp at hj
          · simp at hj; omega
      · rw [runningTotal_concat, c5, c1]
        by_cases hb : o = back
        · rw [if_pos hb, f3 hb.symm, hb]
        · rw [if_neg hb, f4 (by omega)]
      · intro j hj
        by_cases hjk : j < k + 1
        · obtain ⟨r', x', y', g1, g2, g3, g4⟩ := c7 j hjk
          refine ⟨r', x', y', ?_, ?_, g3, g4⟩
          · rw [List.getElem?_append_left (by omega)]; exact g1
          · rw [List.getElem?_append_left (by omega)]; exact g2
        · obtain rfl : j = k + 1 := by omega
          refine ⟨r, _, _, ?_, ?_, hgk, b5⟩
          · rw [List.getElem?_append_right (by omega)]; simp [c2]
          · rw [List.getElem?_append_right (by omega)]; simp [c1]

/-- A positive number plus a nonnegative one is positive in floating point. -/
theorem add_pos_ieee {a b : F} {x y z : ℝ} (ha : Is a x) (hb : Is b y) (h : Is (a + b) z) (hx : 0 < x) (hy : 0 ≤ y) : 0 < z := by
  have h1 := Is.add ha hb
  rw [h] at h1
  have := rnd_lower ha h1.symm (by linarith)
  linarith

/-- C72, in floating point: if a reference patch has positive similarity with everything in its search window, then the reported
matches are a choice within the search windows, and no choice within the windows has a larger total, where totals are formed by adding
the similarities one after the other in floating point - however much longer than the search window the signals are. -/
theorem C72_window_rounded {p : Profile} {rps : List (Mat F)} {ix : List Nat} {deg : Mat F} {fd : F} {radius pp : Nat}
    {rs : List (PatchSim F)} {nb : Nat} {S : ℝ} (h : findMostOptimalDegPatches p rps ix deg fd radius = .ok rs)
    (hl : rps.length = ix.length) (hr : ∀ q ∈ rps, q.WF ∧ q.nrows = nb ∧ q.ncols = pp)
    (wd : deg.WF) (hN2 : deg.ncols + pp < 9223372036854775808) (hpp2 : pp ≤ 2147483647)
    (hlen : ix.length ≤ 2 ^ 50) (hbig : ∀ i ∈ ix, i + radius * pp ≤ 2147483647)
    (hsorted : ix.Pairwise (· < ·)) (hdeg : 0 < deg.ncols) (hreach : ∀ i ∈ ix, i < deg.ncols + radius * pp)
    (hS0 : 1 ≤ S) (hS : S ≤ 2 ^ 850) (hsim : SimilaritiesWithin p S rps deg)
    (hpos : ∀ k < rs.length, ∀ o, InWindow ix (radius * pp) deg.ncols k o → ∀ x, val (simAt p rps deg k o) = .fin x → 0 < x) :
    ∃ (c : List (Option Nat)) (t : F), c.length = rs.length ∧ Within ix (radius * pp) deg.ncols c ∧
      (∀ j < rs.length, ∃ r x m, rs[j]? = some r ∧ c[j]? = some x ∧ rps[j]? = some m ∧
        Reports p deg m fd (fd * Flt.ofNat pp) r x) ∧
      runningTotal (simAt p rps deg) c = some t ∧ (∃ x, val t = .fin x) ∧
      ∀ c', c'.length = rs.length → Within ix (radius * pp) deg.ncols c' →
        ∃ t', runningTotal (simAt p rps deg) c' = some t' ∧ (∃ x, val t' = .fin x) ∧ Flt.lt t t' = false := by
  have hrs := find_calcMax h hl (fun q hq => (hr q hq).2.2)
  have hS9 : S ≤ 2 ^ 900 := hS.trans (two_pow_mono (by norm_num))
  have hsbd := hsim.bd (fun q hq => (hr q hq).2.2)
  unfold findMostOptimalDegPatches at h
  obtain ⟨first, hf, h⟩ := bind_ok h
  obtain ⟨sw, hsw, h⟩ := bind_ok h
  obtain ⟨n, hn, h⟩ := bind_ok h
  have hfp : first.ncols = pp := (hr _ (List.mem_of_getElem? (idx_ok hf))).2.2
  rw [hfp] at h hn hsw
  have hpos' := calcMaxLoop_le hrs
  have hix0 : 0 < ix.length := by omega
  have hi1 := hbig _ (List.getElem_mem hix0)
  have hcast : (radius : Int) * (pp : Int) = ((radius * pp : Nat) : Int) := by push_cast; rfl
  rw [wrapI32_of_mem (z := (pp : Int)) (by omega) (by omega), hcast, i32_of_mem (by omega) (by omega)] at hsw
  cases hsw
  generalize hsw : radius * pp = sw at *
  have hsw0 : (0 : Int) ≤ (sw : Int) := by omega
  have hbig' : ∀ i ∈ ix, (i : Int) + (sw : Int) ≤ 2147483647 := fun i hi => by have := hbig i hi; omega
  unfold calcMaxNumPatches at hn
  rw [if_neg (by omega), hrs] at hn
  cases hn
  rw [if_neg (by omega)] at h
  generalize hnn : rs.length = n at *
  have hum : deg.ncols + pp < usizeMod := lt_usizeMod hN2
  rw [bind_of_ok (mapE_of_forall (g := fun o => deg.window o pp) (fun o ho => by
    have := List.mem_range.mp ho
    exact buildDegradedPatch_window wd (by omega) (by omega)))] at h
  generalize hdps : (List.range deg.ncols).map (fun o => deg.window o pp) = dps at h hsbd
  have hdg : ∀ o < deg.ncols, dps[o]? = some (deg.window o pp) := by
    intro o ho
    rw [← hdps, List.getElem?_map, List.getElem?_range ho]; rfl
  obtain ⟨rows, hrows, h⟩ := bind_ok h
  obtain ⟨li, hli, h⟩ := bind_ok h
  have hli := idx_ok hli
  have hbn := hbig' _ (List.mem_of_getElem? hli)
  have hrn := hreach _ (List.mem_of_getElem? hli)
  have hus : i32ToUsize (sw : Int) = sw := by rw [i32ToUsize_nonneg hsw0]; exact Int.toNat_natCast _
  rw [bind_of_ok (i32_window (p := p) hsw0 hbn).1, hus, bind_of_ok (uadd_of_lt (lt_usizeMod (by omega))),
    bind_of_ok (uadd_of_lt (lt_usizeMod (by omega)))] at h
  obtain ⟨lr, hlr, h⟩ := bind_ok h
  have hlr := idx_ok hlr
  obtain ⟨best, hbest, h⟩ := bind_ok h
  have hrl := dpRows_length _ _ _ hrows
  rw [List.length_zip] at hrl
  have hrr := dpRows_ieee hS0 hS hrows (by rw [List.length_zip]; omega) (fun x hx => hsbd _ (List.of_mem_zip hx).1)
    (fun x hx => ⟨_, (i32_window (p := p) hsw0 (hbig' _ (List.of_mem_zip hx).2)).1⟩)
  -- the table as a function
  let V : Nat → Nat → F := fun k o => ((rows.getD k ([], [])).1).getD o 0.0
  have hV : ∀ (k o : Nat) r v, rows[k]? = some r → r.1[o]? = some v → V k o = v := by
    intro k o r v h1 h2
    simp only [V, List.getD_eq_getElem?_getD, h1, Option.getD_some, h2]
  have hVbd : ∀ k o, k < ix.length → o < deg.ncols → Bd (grow S (k + 1)) (V k o) := by
    intro k o hk ho
    have hkr : k < rows.length := by omega
    obtain ⟨q1, q2, _⟩ := hrr k _ (List.getElem?_eq_getElem hkr)
    have ho' : o < rows[k].1.length := by omega
    rw [hV _ _ _ _ (List.getElem?_eq_getElem hkr) (List.getElem?_eq_getElem ho')]
    exact q1 _ (List.getElem_mem ho')
  have hsimAt : ∀ (k o : Nat) m q, rps[k]? = some m → measurePatchSimilarity p m (deg.window o m.ncols) = .ok q →
      q.similarity = simAt p rps deg k o := by
    intro k o m q h1 h2
    unfold simAt
    rw [h1]
    simp only [h2]
  have hcell : ∀ k (hk : k < ix.length), ∃ r prev, rows[k]? = some r ∧ (k = 0 → prev = none) ∧
      (∀ j, k = j + 1 → ∃ m' i' r', (rps.zip ix)[j]? = some (m', i') ∧ rows[j]? = some r' ∧ prev = some (i', r'.1)) ∧
      (∀ o < deg.ncols, ¬ InWindow ix sw deg.ncols k o → Is (V k o) 0) ∧
      ∀ o, InWindow ix sw deg.ncols k o → ∃ v b, r.1[o]? = some v ∧ r.2[o]? = some b ∧ Bd S (simAt p rps deg k o) ∧
        dpCell p prev sw o (simAt p rps deg k o) = .ok (v, b) := by
    intro k hk
    have hkz : k < (rps.zip ix).length := by rw [List.length_zip]; omega
    obtain ⟨r, e1, prev, e2, e3, e4⟩ := dpRows_get _ _ _ hrows k rps[k] ix[k] (by
      rw [List.getElem?_eq_getElem hkz, List.getElem_zip])
    obtain ⟨_, _, lo, hi, g1, g2, g3⟩ := findOne_ok (row := r.1) (bt := r.2) e2
    have hb := hbig' _ (List.getElem_mem hk)
    obtain ⟨w1, w2⟩ := i32_window (p := p) hsw0 hb
    rw [w1] at g1; cases g1
    rw [w2] at g2; cases g2
    refine ⟨r, prev, e1, e3, e4, fun o ho hout => ?_, fun o ho => ?_⟩
    · obtain ⟨v, b, k1, k2, _, k4⟩ := g3 o ho
      rw [hV k o r v e1 k1, (k4 fun hc => hout ⟨ix[k], List.getElem?_eq_getElem hk, by omega, by omega, ho⟩).1]
      exact val_0
    · obtain ⟨i, i1, i2, i3, i4⟩ := ho
      rw [List.getElem?_eq_getElem hk] at i1
      cases i1
      obtain ⟨v, b, k1, k2, k3, _⟩ := g3 o i4
      obtain ⟨d, q, q1, q2, q3⟩ := (k3 ⟨by omega, by omega⟩).out
      rw [hdg o i4] at q1
      cases q1
      have hm := hr rps[k] (List.getElem_mem (by omega))
      have hq2 := q2
      rw [show deg.window o pp = deg.window o rps[k].ncols by rw [hm.2.2]] at hq2
      rw [← hsimAt k o rps[k] q (List.getElem?_eq_getElem (by omega)) hq2]
      exact ⟨v, b, k1, k2, hsim k o rps[k] q (List.getElem?_eq_getElem (by omega)) i4 hq2, q3⟩
  have hzero : ∀ r, rows[0]? = some r → ∀ o, InWindow ix sw deg.ncols 0 o → V 0 o = simAt p rps deg 0 o ∧
      r.2[o]? = some (usizeMod - 1) := by
    intro r0 hr0 o ho
    obtain ⟨r, prev, e1, e2, _, _, e4⟩ := hcell 0 hix0
    rw [hr0] at e1; cases e1
    obtain ⟨v, b, k1, k2, _, k4⟩ := e4 o ho
    rw [e2 rfl] at k4
    cases k4
    exact ⟨hV 0 o _ _ hr0 k1, k2⟩
  have hsb : ∀ k o, k < ix.length → InWindow ix sw deg.ncols k o → Bd S (simAt p rps deg k o) := by
    intro k o hk ho
    obtain ⟨_, _, _, _, _, _, e4⟩ := hcell k hk
    obtain ⟨_, _, _, _, k3, _⟩ := e4 o ho
    exact k3
  -- where the window of a patch begins
  have hfirst : ∀ k (hk : k < ix.length), InWindow ix sw deg.ncols k (ix[k] - sw) := by
    intro k hk
    have := hreach _ (List.getElem_mem hk)
    refine ⟨ix[k], List.getElem?_eq_getElem hk, by omega, by omega, by omega⟩
  have hstep0 : ∀ k, k + 1 < ix.length → ∀ r, rows[k + 1]? = some r → ∀ o, InWindow ix sw deg.ncols (k + 1) o →
      ∃ b, r.2[o]? = some b ∧ b ≤ o ∧
      (b = o → V (k + 1) o = V k o) ∧ (b < o → V (k + 1) o = simAt p rps deg (k + 1) o + V k b ∧ ix[k]! - sw ≤ b ∧
        ∀ j < o, ix[k]! - sw ≤ j → Flt.lt (V k b) (V k j) = false) ∧
      Flt.lt (V (k + 1) o) (V k o) = false ∧
      ∀ j < o, ix[k]! - sw ≤ j → Flt.lt (V (k + 1) o) (simAt p rps deg (k + 1) o + V k j) = false := by
    intro k hk r1 hr1 o ho
    have hoN : o < deg.ncols := ho.choose_spec.2.2.2
    obtain ⟨r, prev, e1, _, e3, _, e4⟩ := hcell (k + 1) hk
    rw [hr1] at e1; cases e1
    obtain ⟨v, b, k1, k2, k3, k4⟩ := e4 o ho
    obtain ⟨m', i', r', f1, f2, f3⟩ := e3 k rfl
    rw [f3] at k4
    have hi' := (List.of_mem_zip (List.mem_of_getElem? f1)).2
    have hik : ix[k]! = i' := by
      have := (List.getElem?_eq_some_iff.mp f1).2
      rw [List.getElem_zip] at this
      rw [getElem!_pos ix k (by omega)]
      exact (Prod.ext_iff.mp this).2
    obtain ⟨bb, bl, _, _⟩ := hrr k r' f2
    obtain ⟨same, s1, s2, _, s5, s6, s3, s7⟩ := dpCell_ieee hS0 hS (by omega) bb k3 (i32_window (p := p) hsw0 (hbig' _ hi')).1 k4
    refine ⟨b, k2, s2, ?_, ?_, ?_, ?_⟩
    · intro he
      rw [hV _ _ _ _ hr1 k1, hV _ _ _ _ f2 s1, s5 he]
    · intro hlt
      obtain ⟨s6, x, x1, x2, x3⟩ := s6 hlt
      rw [hV _ _ _ _ hr1 k1, hV _ _ _ _ f2 x1, x2, hik]
      refine ⟨rfl, by omega, fun j hj hjl => ?_⟩
      have hjl' : j < r'.1.length := by omega
      rw [hV _ _ _ _ f2 (List.getElem?_eq_getElem hjl')]
      exact x3 j _ hj (by omega) (List.getElem?_eq_getElem hjl')
    · rw [hV _ _ _ _ hr1 k1, hV _ _ _ _ f2 s1]; exact s3
    · intro j hj hjl
      have hjl' : j < r'.1.length := by omega
      rw [hik] at hjl
      have := s7 j _ hj (by omega) (List.getElem?_eq_getElem hjl')
      rw [hV _ _ _ _ hr1 k1, hV _ _ _ _ f2 (List.getElem?_eq_getElem hjl')]
      exact this
  have hmono : ∀ k, (hk : k + 1 < ix.length) → ix[k] < ix[k + 1] := fun k hk =>
    List.pairwise_iff_getElem.mp hsorted k (k + 1) (by omega) hk (by omega)
  have hin : ∀ {k o : Nat} (hk : k < ix.length), InWindow ix sw deg.ncols k o → ix[k] - sw ≤ o ∧ o ≤ ix[k] + sw ∧ o < deg.ncols := by
    rintro k o hk ⟨i, i1, i2, i3, i4⟩
    rw [List.getElem?_eq_getElem hk] at i1
    cases i1
    exact ⟨by omega, i3, i4⟩
  -- the sum of a similarity and an earlier value is a finite number
  have hsum : ∀ k o j, k + 1 < n → InWindow ix sw deg.ncols (k + 1) o → j < deg.ncols → ∀ x, Is (V k j) x → 0 ≤ x →
      ∃ z, Is (simAt p rps deg (k + 1) o + V k j) z ∧ 0 < z := by
    intro k o j hk ho hj x hx hx0
    obtain ⟨y, hy1, hy2⟩ := hsb (k + 1) o (by omega) ho
    obtain ⟨w, hw1, hw2⟩ := hVbd k j (by omega) hj
    rw [Is, hx] at hw1
    cases hw1
    obtain ⟨z, hz1, _⟩ := grow_step (F := F) hS0 hS9 (by omega) hw2 hy2
    have hz : Is (simAt p rps deg (k + 1) o + V k j) z := (Is.add hy1 hx).trans (by rw [add_comm]; exact hz1)
    exact ⟨z, hz, add_pos_ieee hy1 hx hz (hpos (k + 1) hk o ho y hy1) hx0⟩
  -- positive inside the windows
  have hVpos : ∀ k, k < n → ∀ o, InWindow ix sw deg.ncols k o → ∃ x, Is (V k o) x ∧ 0 < x := by
    intro k
    induction k with
    | zero =>
      intro hk o ho
      have : 0 < rows.length := by omega
      rw [(hzero _ (List.getElem?_eq_getElem this) o ho).1]
      obtain ⟨y, hy1, _⟩ := hsb 0 o hix0 ho
      exact ⟨y, hy1, hpos 0 hk o ho y hy1⟩
    | succ k ih =>
      intro hk o ho
      have hkx : k + 1 < ix.length := by omega
      have hk1 : k + 1 < rows.length := by omega
      obtain ⟨b, _, _, _, _, q5, q6⟩ := hstep0 k hkx _ (List.getElem?_eq_getElem hk1) o ho
      obtain ⟨f, hf1, hf2⟩ := ih (by omega) _ (hfirst k (by omega))
      have h2 := hin hkx ho
      have h3 := hmono k hkx
      obtain ⟨v, hv1, _⟩ := hVbd (k + 1) o hkx h2.2.2
      refine ⟨v, hv1, ?_⟩
      by_cases hc : ix[k] - sw < o
      · have q := q6 _ hc (by rw [getElem!_pos ix k (by omega)])
        obtain ⟨z, hz1, hz2⟩ := hsum k o _ hk ho (hin (by omega) (hfirst k (by omega))).2.2 f hf1 hf2.le
        rw [Is.lt hv1 hz1, decide_eq_false_iff_not, not_lt] at q
        exact hz2.trans_le q
      · have : o = ix[k] - sw := by omega
        rw [← this] at hf1
        rw [Is.lt hv1 hf1, decide_eq_false_iff_not, not_lt] at q5
        exact hf2.trans_le q5
  have hsucc : ∀ k, k + 1 < n → ∀ r, rows[k + 1]? = some r → ∀ o, InWindow ix sw deg.ncols (k + 1) o → ∃ b, r.2[o]? = some b ∧
      b ≤ o ∧ InWindow ix sw deg.ncols k b ∧
      (b = o → V (k + 1) o = V k o) ∧ (b < o → V (k + 1) o = simAt p rps deg (k + 1) o + V k b) := by
    intro k hk r hr' o ho
    have hkx : k + 1 < ix.length := by omega
    have hoN := hin hkx ho
    obtain ⟨b, q1, q2, q3, q4, q5, q6⟩ := hstep0 k hkx r hr' o ho
    refine ⟨b, q1, q2, ?_, q3, fun hb => (q4 hb).1⟩
    by_contra hout
    obtain ⟨_, _, _, _, _, hz, _⟩ := hcell k (by omega)
    have hb0 := hz b (by omega) hout
    obtain ⟨f, hf1, hf2⟩ := hVpos k (by omega) _ (hfirst k (by omega))
    have h3 := hmono k hkx
    by_cases hbo : b = o
    · have e := q3 hbo
      rw [hbo] at hb0
      obtain ⟨x, hx1, hx2⟩ := hVpos (k + 1) hk o ho
      rw [e, Is, hb0] at hx1
      cases hx1
      exact lt_irrefl _ hx2
    · obtain ⟨_, q7, q8⟩ := q4 (by omega)
      rw [getElem!_pos ix k (by omega)] at q7
      have q := q8 (ix[k] - sw) (by omega) (by rw [getElem!_pos ix k (by omega)])
      rw [Is.lt hb0 hf1, decide_eq_false_iff_not, not_lt] at q
      linarith
  -- the chosen end
  have hn1 : n - 1 < ix.length := by omega
  have hlin : ix[n - 1] = li := (List.getElem?_eq_some_iff.mp hli).2
  have hboth : InWindow ix sw deg.ncols (n - 1) best.2 ∧
      ∀ o, InWindow ix sw deg.ncols (n - 1) o → ∀ x y, Is (V (n - 1) o) x → Is (V (n - 1) best.2) y → x ≤ y := by
    obtain ⟨lb, ll, _, _⟩ := hrr (n - 1) lr hlr
    obtain ⟨M, hM, hM2⟩ := minVal_below (F := F)
    obtain ⟨z, b1, _, b2, b3⟩ := lastOffsetScan_val (fun a ha => (lb a ha).val) _ _ _ M hM hbest
    have hmem : ∀ o, InWindow ix sw deg.ncols (n - 1) o ↔
        o ∈ lastOffsets (max 0 ((li : Int) - (sw : Int))).toNat (li + sw + 1) deg.ncols := by
      intro o
      unfold lastOffsets
      constructor
      · intro ho
        have := hin hn1 ho
        rw [hlin] at this
        exact List.mem_map.mpr ⟨o - (max 0 ((li : Int) - (sw : Int))).toNat, List.mem_range.mpr (by omega), by omega⟩
      · intro ho
        obtain ⟨j, hj, rfl⟩ := List.mem_map.mp ho
        have := List.mem_range.mp hj
        exact ⟨li, hli, by omega, by omega, by omega⟩
    have hval : ∀ o < deg.ncols, ∃ v, lr.1[o]? = some v ∧ V (n - 1) o = v := by
      intro o ho
      have hol : o < lr.1.length := by omega
      exact ⟨_, List.getElem?_eq_getElem hol, hV _ _ _ _ hlr (List.getElem?_eq_getElem hol)⟩
    rcases b3 with b3 | ⟨b3, b4⟩
    · exfalso
      have hfl := hfirst (n - 1) hn1
      obtain ⟨v, hv, _⟩ := hval _ (hin hn1 hfl).2.2
      obtain ⟨x, h2, h3⟩ := lb v (List.mem_of_getElem? hv)
      have h1 := b2 _ ((hmem _).mp hfl) v x hv h2
      rw [b3] at b1
      rw [Is, hM] at b1
      cases b1
      have h4 := abs_le.mp (h3.trans (grow_905 hS0 hS (by omega)))
      have h9 : (2 : ℝ) ^ 905 < 2 ^ 1000 := pow_lt_pow_right₀ (by norm_num) (by norm_num)
      have h5 := h4.1
      clear h4 h3 hS hS9
      generalize (2 : ℝ) ^ 905 = A at *
      generalize (2 : ℝ) ^ 1000 = B at *
      linarith
    · refine ⟨(hmem _).mpr b3, fun o ho x y hx hy => ?_⟩
      obtain ⟨v, hv, e⟩ := hval o (hin hn1 ho).2.2
      rw [e] at hx
      rw [hV _ _ _ _ hlr b4] at hy
      rw [Is, b1] at hy
      cases hy
      exact b2 o ((hmem o).mp ho) v x hv hx
  obtain ⟨hbo, hbmax⟩ := hboth
  have hitems : ∀ (k : Nat) x, (rps.zip (ix.zip (rows.map Prod.snd)))[k]? = some x → ∃ r, rows[k]? = some r ∧ x.2.2 = r.2 ∧
      rps[k]? = some x.1 ∧ k < ix.length := by
    intro k x hk
    have hkl := (List.getElem?_eq_some_iff.mp hk).1
    rw [List.length_zip, List.length_zip, List.length_map] at hkl
    have he := (List.getElem?_eq_some_iff.mp hk).2
    refine ⟨rows[k]'(by omega), List.getElem?_eq_getElem _, ?_, ?_, by omega⟩
    · rw [← he, List.getElem_zip, List.getElem_zip, List.getElem_map]
    · rw [List.getElem?_eq_getElem (by omega), ← he, List.getElem_zip]
  have hnl : n ≤ (rps.zip (ix.zip (rows.map Prod.snd))).length := by
    rw [List.length_zip, List.length_zip, List.length_map]; omega
  obtain ⟨c, c1, c2, c3, _, _, c5, c7⟩ := backtrack_window_ieee (s := simAt p rps deg) (V := V) (ix := ix) (sw := sw) wd (by omega) hnl (by
      intro x hx o ho
      obtain ⟨r, r1, r2, _⟩ := hitems 0 x hx
      rw [r2]; exact hzero r r1 o ho) (by
      intro k x hkn hx o ho
      obtain ⟨r, r1, r2, _, r4⟩ := hitems (k + 1) x hx
      rw [r2]
      exact hsucc k hkn r r1 o ho) (n - 1) (by omega) best.2 rs hbo (by
      rw [show n - 1 + 1 = n by omega]; exact h)
  obtain ⟨y, hy, _⟩ := hVbd (n - 1) best.2 (by omega) (hin hn1 hbo).2.2
  refine ⟨c, _, by omega, c3, ?_, c5, ⟨y, hy⟩, ?_⟩
  · intro j hj
    obtain ⟨r, x, y, g1, g2, g3, g4⟩ := c7 j (by omega)
    exact ⟨r, x, _, g1, g2, (hitems j y g3).choose_spec.2.2.1, g4⟩
  · intro c' hc' hA
    obtain ⟨o, t, x, z, _, ho, ht, hx, _, hz, hle⟩ := window_upper_ieee (N := deg.ncols) (n := n) (s := simAt p rps deg) (V := V)
      hS0 hS9 (by omega) (fun k o hk ho => hsb k o (by omega) ho) (fun k o hk ho => hVbd k o (by omega) (hin (by omega) ho).2.2)
      (fun o ho => by
        have : 0 < rows.length := by omega
        exact (hzero _ (List.getElem?_eq_getElem this) o ho).1)
      (fun k o hk ho => by
        have hk1 : k + 1 < rows.length := by omega
        obtain ⟨b, _, _, _, _, q5, q6⟩ := hstep0 k (by omega) _ (List.getElem?_eq_getElem hk1) o ho
        refine ⟨fun _ => q5, fun j hj hjw => q6 j hj ?_⟩
        rw [getElem!_pos ix k (by omega)]
        exact (hin (by omega) hjw).1) (n - 1) c' (by omega) (by omega) hA
    refine ⟨t, ht, ⟨x, hx⟩, ?_⟩
    rw [Is.lt hy hx, decide_eq_false]
    exact not_lt.mpr (hle.trans (hbmax o ho z y hz hy))

theorem flat64_window {o n N : Nat} (h : o + n ≤ N) : (flat64 N).window o n = flat64 n := by
  simp only [Mat.window, flat64, List.map_replicate]
  congr 2
  refine List.ext_getElem? fun i => ?_
  by_cases hi : i < n
  · rw [List.getElem?_map, List.getElem?_range hi, List.getElem?_replicate]
    simp [hi, List.getD_eq_getElem?_getD, show o + i < N by omega]
  · rw [List.getElem?_eq_none (by simp; omega), List.getElem?_eq_none (by simp; omega)]

/-- Patches of equal levels have a positive similarity with every place of such a spectrogram, in double precision. -/
theorem flat64_sim_pos (p : Profile) {k : Nat} (hk : k < 3) {o : Nat} (ho' : o + 10 ≤ 60) {x : ℝ}
    (hx : val (simAt p [flat64 10, flat64 10, flat64 10] (flat64 60) k o) = .fin x) : 0 < x := by
  have hget : [flat64 10, flat64 10, flat64 10][k]? = some (flat64 10) := by
    interval_cases k <;> rfl
  have hc : (flat64 10).ncols = 10 := rfl
  obtain ⟨r, hr, _, _, y, hy1, hy2⟩ := C08_nsim_self_rounded p (flat64 10) (flat64_wf 10).1 (by rw [(flat64_wf 10).2]; decide) (by decide)
    (by rw [(flat64_wf 10).2]; decide) (by rw [hc]; decide) (fun r hr a ha => by
      obtain ⟨x, h1, h2⟩ := flat64_pw 10 r hr a ha
      exact ⟨x, h1, h2.trans (by norm_num)⟩)
  unfold simAt at hx
  rw [hget] at hx
  simp only [hc, flat64_window ho', hr] at hx
  rw [hy1] at hx
  cases hx
  have := (abs_le.mp hy2).1
  linarith

/-- The hypotheses of `C72_window_rounded`: three patches in double precision, and a search window of one patch on either side, far from
covering the degraded spectrogram. -/
example (p : Profile) : ∃ rs, findMostOptimalDegPatches p [flat64 10, flat64 10, flat64 10] [5, 15, 25] (flat64 60) (0.02 : B64) (1 : ℕ) = .ok rs ∧
    (∀ q ∈ [flat64 10, flat64 10, flat64 10], q.WF ∧ q.nrows = 10 ∧ q.ncols = 10) ∧ (flat64 60).WF ∧
    (∀ i ∈ [5, 15, 25], i < (flat64 60).ncols + 1 * 10) ∧
    SimilaritiesWithin p (2 ^ 600) [flat64 10, flat64 10, flat64 10] (flat64 60) ∧
    (∀ k < 3, ∀ o, InWindow [5, 15, 25] (1 * 10) (flat64 60).ncols k o →
      ∀ x, val (simAt p [flat64 10, flat64 10, flat64 10] (flat64 60) k o) = .fin x → 0 < x) ∧
    ¬ InWindow [5, 15, 25] (1 * 10) (flat64 60).ncols 0 16 := by
  have hall : ∀ q ∈ [flat64 10, flat64 10, flat64 10], q = flat64 10 := by
    intro q hq
    simpa only [List.mem_cons, List.not_mem_nil, or_false, or_self] using hq
  have hq : ∀ q ∈ [flat64 10, flat64 10, flat64 10], q.WF ∧ q.nrows = 10 ∧ q.ncols = 10 := by
    intro q hq
    rw [hall q hq]
    exact ⟨(flat64_wf 10).1, (flat64_wf 10).2, rfl⟩
  have hN : (flat64 60).ncols = 60 := rfl
  have hs : SimilaritiesWithin p (2 ^ 600) [flat64 10, flat64 10, flat64 10] (flat64 60) :=
    similarities_within (n := 0) (nb := 10) (pp := 10) (by norm_num) hq (by norm_num) (by norm_num) (by norm_num) (by norm_num)
      (flat64_wf 60).2 (fun q hq => by rw [hall q hq]; exact flat64_pw 10) (flat64_pw 60)
  obtain ⟨rs, h⟩ := C34_no_panic_rounded p (rps := [flat64 10, flat64 10, flat64 10]) (ix := [5, 15, 25]) (deg := flat64 60)
    (fd := 0.02) (radius := (1 : ℕ)) (nb := 10) (pp := 10) (S := 2 ^ 600) rfl hq (by decide) (by decide) (flat64_wf 60).1 (flat64_wf 60).2
    (by rw [hN]; decide) (by rw [hN]; decide) (by decide) (by decide) (by norm_num) (by decide) (by decide)
    ⟨15, by decide, by decide, by rw [hN]; decide⟩ (by rw [hN]; decide) (by simpa using two_pow_mono (m := 0) (n := 600) (by norm_num)) (two_pow_mono (by norm_num)) hs
  refine ⟨rs, h, hq, (flat64_wf 60).1, by rw [hN]; decide, hs, fun k hk o ho x hx => ?_, ?_⟩
  · have ho' : o + 10 ≤ 60 := by
      obtain ⟨i, i1, i2, i3, _⟩ := ho
      have : i ∈ [5, 15, 25] := List.mem_of_getElem? i1
      simp only [List.mem_cons, List.not_mem_nil, or_false] at this
      omega
    exact flat64_sim_pos p hk ho' hx
  · rintro ⟨i, i1, i2, i3, i4⟩
    cases i1
    omega

end Visqol
