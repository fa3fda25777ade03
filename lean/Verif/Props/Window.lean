import Verif.Props.Optimal

/-! # Coarse matching of long signals (C72) -/

set_option linter.unusedSectionVars false

namespace Visqol

theorem latest_concat (c : List (Option Nat)) (x : Option Nat) : latest (c ++ [x]) = x.or (latest c) := by
  unfold latest
  cases x with
  | none => simp
  | some o => simp

theorem Within.init {ix : List Nat} {sw N : Nat} {c : List (Option Nat)} {x : Option Nat} (h : Within ix sw N (c ++ [x])) :
    Within ix sw N c := by
  refine ⟨?_, fun k hk => ?_⟩
  · have := h.order
    unfold InOrder at this ⊢
    rw [List.filterMap_append, List.pairwise_append] at this
    exact this.1
  · have := h.window k (by simp; omega)
    rwa [List.take_append_of_le_length (by omega)] at this

/-- The value function of the tables bounds every choice within the windows. -/
theorem window_upper {ix : List Nat} {sw N n : Nat} {s V : Nat → Nat → ℝ} (h0 : ∀ o, InWindow ix sw N 0 o → V 0 o = s 0 o)
    (hs : ∀ k o, k + 1 < n → InWindow ix sw N (k + 1) o → (InWindow ix sw N k o → V k o ≤ V (k + 1) o) ∧
      ∀ j < o, InWindow ix sw N k j → s (k + 1) o + V k j ≤ V (k + 1) o) :
    ∀ (k : Nat) (c : List (Option Nat)), k < n → c.length = k + 1 → Within ix sw N c →
      ∃ o, latest c = some o ∧ InWindow ix sw N k o ∧ totalSim s c ≤ V k o
  | 0, c, _, hc, hA => by
    obtain ⟨x, rfl⟩ : ∃ x, c = [x] := by
      match c, hc with
      | [x], _ => exact ⟨x, rfl⟩
    obtain ⟨o, h1, h2⟩ := hA.window 0 (by simp)
    obtain rfl : x = some o := by cases x <;> simp_all [latest]
    refine ⟨o, rfl, h2, ?_⟩
    rw [h0 o h2]
    simp [totalSim]
  | k + 1, c, hk, hc, hA => by
    obtain ⟨c', x, rfl⟩ : ∃ c' x, c = c' ++ [x] :=
      ⟨c.dropLast, c.getLast (by intro h; rw [h] at hc; simp at hc), (List.dropLast_append_getLast _).symm⟩
    have hc' : c'.length = k + 1 := by simpa using hc
    obtain ⟨o, h1, h2, h3⟩ := window_upper h0 hs k c' (by omega) hc' hA.init
    obtain ⟨o', g1, g2⟩ := hA.window (k + 1) (by simp [hc'])
    rw [List.take_of_length_le (by simp [hc'])] at g1
    rw [totalSim_concat, hc']
    refine ⟨o', g1, g2, ?_⟩
    rw [latest_concat, h1] at g1
    cases x with
    | none =>
      obtain rfl : o = o' := by simpa using g1
      have := (hs k o hk g2).1 h2
      simp only [Option.elim_none]
      linarith
    | some j =>
      obtain rfl : j = o' := by simpa using g1
      have hoj : o < j := by
        have := hA.order
        unfold InOrder at this
        rw [List.filterMap_append, List.pairwise_append] at this
        exact this.2.2 o (List.mem_of_getLast? h1) j (by simp)
      have := (hs k j hk g2).2 o hoj h2
      simp only [Option.elim_some]
      linarith

/-- The back trace stays in the windows and attains the value of the table. -/
theorem backtrack_window {p : Profile} {deg : Mat ℝ} {fd pd : ℝ} (wd : deg.WF) (hnc : deg.ncols < usizeMod) {ix : List Nat} {sw : Nat}
    {s V : Nat → Nat → ℝ} {items : List (Mat ℝ × Nat × List Nat)} {n : Nat} (hn : n ≤ items.length)
    (hs : ∀ (k : Nat) x, items[k]? = some x → ∀ o < deg.ncols, ∀ q,
      measurePatchSimilarity p x.1 (deg.window o x.1.ncols) = .ok q → q.similarity = s k o)
    (h0 : ∀ x, items[0]? = some x → ∀ o, InWindow ix sw deg.ncols 0 o → V 0 o = s 0 o ∧ x.2.2[o]? = some (usizeMod - 1))
    (hstep : ∀ (k : Nat) x, k + 1 < n → items[k + 1]? = some x → ∀ o, InWindow ix sw deg.ncols (k + 1) o →
      ∃ b, x.2.2[o]? = some b ∧ b ≤ o ∧ InWindow ix sw deg.ncols k b ∧
      (b = o → V (k + 1) o = V k o) ∧ (b < o → V (k + 1) o = s (k + 1) o + V k b)) :
    ∀ (k : Nat), k < n → ∀ (o : Nat) (rs : List (PatchSim ℝ)), InWindow ix sw deg.ncols k o →
      backtrack p deg fd pd ((items.take (k + 1)).reverse) o = .ok rs →
      ∃ c : List (Option Nat), c.length = k + 1 ∧ rs.length = k + 1 ∧ Within ix sw deg.ncols c ∧ latest c = some o ∧
        (∀ j ∈ c.filterMap id, j ≤ o) ∧ totalSim s c = V k o ∧ (rs.map PatchSim.similarity).sum = V k o ∧
        ∀ j < k + 1, ∃ r x y, rs[j]? = some r ∧ c[j]? = some x ∧ items[j]? = some y ∧ Reports p deg y.1 fd pd r x
  | k, hk, o, rs, ho, h => by
    have hoN : o < deg.ncols := ho.choose_spec.2.2.2
    have hkl : k < items.length := by omega
    have htake : (items.take (k + 1)).reverse = items[k] :: (items.take k).reverse := by
      rw [List.take_succ_eq_append_getElem hkl, List.reverse_append]; rfl
    rw [htake] at h
    have hgk := List.getElem?_eq_getElem hkl
    generalize items[k] = it at h hgk
    obtain ⟨m, i, bt⟩ := it
    unfold backtrack at h
    obtain ⟨⟨r, back⟩, h1, h⟩ := bind_ok h
    obtain ⟨rs', h2, h⟩ := bind_ok h
    cases h
    obtain ⟨b1, b2, _, _, b5⟩ := backtraceStep_reports h1 wd
    have hsim : ∀ o', Reports p deg m fd pd r (some o') → o' < deg.ncols → r.similarity = s k o' := by
      intro o' hr ho'
      have hr : MatchedAt p deg m fd pd o' r := hr
      obtain ⟨q, q1, q2, _⟩ := hr.scores
      rw [q2]
      exact hs k _ hgk o' ho' q q1
    cases k with
    | zero =>
      cases h2
      obtain ⟨e1, e2⟩ := h0 _ hgk o ho
      dsimp only at e2
      rw [b1] at e2
      cases e2
      rw [if_neg (by unfold usizeMod at *; omega)] at b5
      refine ⟨[some o], rfl, rfl, ⟨by simp [InOrder], fun k hk => ?_⟩, rfl, by simp, by simp [totalSim, e1], ?_, ?_⟩
      · obtain rfl : k = 0 := by simpa using hk
        exact ⟨o, rfl, ho⟩
      · simp [hsim o b5 hoN, e1]
      · intro j hj
        obtain rfl : j = 0 := by omega
        exact ⟨r, some o, _, rfl, rfl, hgk, b5⟩
    | succ k =>
      obtain ⟨b, f1, f2, f5, f3, f4⟩ := hstep k _ hk hgk o ho
      dsimp only at f1
      rw [b1] at f1
      cases f1
      obtain ⟨c, c1, c2, c3, c8, c4, c5, c6, c7⟩ := backtrack_window wd hnc hn hs h0 hstep k (by omega) back rs' f5 h2
      have hlat : latest (c ++ [if o = back then none else some o]) = some o := by
        rw [latest_concat, c8]
        split
        · rename_i he; simp [he]
        · simp
      refine ⟨c ++ [if o = back then none else some o], by simp [c1], by simp [c2], ⟨?_, fun k' hk' => ?_⟩, hlat, ?_, ?_, ?_, ?_⟩
      · unfold InOrder
        rw [List.filterMap_append, List.pairwise_append]
        refine ⟨c3.order, ?_, ?_⟩
        · split <;> simp
        · intro a ha b hb
          have := c4 a ha
          split at hb
          · simp at hb
          · simp at hb; omega
      · by_cases hkk : k' < k + 1
        · rw [List.take_append_of_le_length (by omega)]
          exact c3.window k' (by omega)
        · obtain rfl : k' = k + 1 := by simp [c1] at hk'; omega
          rw [List.take_of_length_le (by simp [c1])]
          exact ⟨o, hlat, ho⟩
      · intro j hj
        rw [List.filterMap_append, List.mem_append] at hj
        rcases hj with hj | hj
        · have := c4 j hj; omega
        · split at hj
          · simp at hj
          · simp at hj; omega
      · rw [totalSim_concat, c5, c1]
        by_cases hb : o = back
        · rw [if_pos hb, f3 hb.symm]
          simp [hb]
        · rw [if_neg hb, f4 (by omega)]
          simp only [Option.elim_some]; ring
      · rw [List.map_append, List.sum_append, c6]
        by_cases hb : o = back
        · rw [if_pos hb] at b5
          have b5 : Unmatched r := b5
          have := b5.similarity
          rw [real_lit0] at this
          simp only [List.map_cons, List.map_nil, List.sum_cons, List.sum_nil, this]
          rw [f3 hb.symm, hb]; ring
        · rw [if_neg hb] at b5
          simp only [List.map_cons, List.map_nil, List.sum_cons, List.sum_nil, hsim o b5 hoN]
          rw [f4 (by omega)]; ring
      · intro j hj
        by_cases hjk : j < k + 1
        · obtain ⟨r', x', y', g1, g2, g3, g4⟩ := c7 j hjk
          refine ⟨r', x', y', ?_, ?_, g3, g4⟩
          · rw [List.getElem?_append_left (by omega)]; exact g1
          · rw [List.getElem?_append_left (by omega)]; exact g2
        · obtain rfl : j = k + 1 := by omega
          refine ⟨r, _, _, ?_, ?_, hgk, b5⟩
          · rw [List.getElem?_append_right (by omega)]; simp [c2]
          · rw [List.getElem?_append_right (by omega)]; simp [c1]

/-- C72: if a reference patch has positive similarity with everything in its search window, then the reported matches are a choice
within the search windows, their total similarity is the sum of the reported similarities, and no choice within the windows has a
larger total - however much longer than the search window the signals are. -/
theorem C72_window {p : Profile} {rps : List (Mat ℝ)} {ix : List Nat} {deg : Mat ℝ} {fd : ℝ} {radius pp : Nat}
    {rs : List (PatchSim ℝ)} {nb : Nat} (h : findMostOptimalDegPatches p rps ix deg fd radius = .ok rs)
    (hl : rps.length = ix.length) (hr : ∀ q ∈ rps, q.WF ∧ q.nrows = nb ∧ q.ncols = pp)
    (wd : deg.WF) (hN2 : deg.ncols + pp < 9223372036854775808) (hpp2 : pp ≤ 2147483647)
    (hlen : ix.length ≤ 18446744073709551615) (hbig : ∀ i ∈ ix, i + radius * pp ≤ 2147483647)
    (hsorted : ix.Pairwise (· < ·)) (hdeg : 0 < deg.ncols) (hreach : ∀ i ∈ ix, i < deg.ncols + radius * pp)
    (hpos : ∀ k < rs.length, ∀ o, InWindow ix (radius * pp) deg.ncols k o → 0 < simAt p rps deg k o) :
    ∃ c : List (Option Nat), c.length = rs.length ∧ Within ix (radius * pp) deg.ncols c ∧
      (∀ j < rs.length, ∃ r x m, rs[j]? = some r ∧ c[j]? = some x ∧ rps[j]? = some m ∧
        Reports p deg m fd (fd * pp) r x) ∧
      totalSim (simAt p rps deg) c = (rs.map PatchSim.similarity).sum ∧
      ∀ c', c'.length = rs.length → Within ix (radius * pp) deg.ncols c' →
        totalSim (simAt p rps deg) c' ≤ totalSim (simAt p rps deg) c := by
  have hrs := find_calcMax h hl (fun q hq => (hr q hq).2.2)
  unfold findMostOptimalDegPatches at h
  obtain ⟨first, hf, h⟩ := bind_ok h
  obtain ⟨sw, hsw, h⟩ := bind_ok h
  obtain ⟨n, hn, h⟩ := bind_ok h
  have hfp : first.ncols = pp := (hr _ (List.mem_of_getElem? (idx_ok hf))).2.2
  rw [hfp] at h hn hsw
  have hpos' := calcMaxLoop_le hrs
  have hix0 : 0 < ix.length := by omega
  have hi1 := hbig _ (List.getElem_mem hix0)
  have hcast : (radius : Int) * (pp : Int) = ((radius * pp : Nat) : Int) := by push_cast; rfl
  rw [wrapI32_of_mem (z := (pp : Int)) (by omega) (by omega), hcast, i32_of_mem (by omega) (by omega)] at hsw
  cases hsw
  generalize hsw : radius * pp = sw at *
  have hsw0 : (0 : Int) ≤ (sw : Int) := by omega
  have hbig' : ∀ i ∈ ix, (i : Int) + (sw : Int) ≤ 2147483647 := fun i hi => by have := hbig i hi; omega
  unfold calcMaxNumPatches at hn
  rw [if_neg (by omega), hrs] at hn
  cases hn
  rw [if_neg (by omega)] at h
  generalize hnn : rs.length = n at *
  have hum : deg.ncols + pp < usizeMod := lt_usizeMod hN2
  rw [bind_of_ok (mapE_of_forall (g := fun o => deg.window o pp) (fun o ho => by
    have := List.mem_range.mp ho
    exact buildDegradedPatch_window wd (by omega) (by omega)))] at h
  generalize hdps : (List.range deg.ncols).map (fun o => deg.window o pp) = dps at h
  have hdg : ∀ o < deg.ncols, dps[o]? = some (deg.window o pp) := by
    intro o ho
    rw [← hdps, List.getElem?_map, List.getElem?_range ho]; rfl
  have hdw : ∀ d ∈ dps, d.WF := by
    intro d hdm
    rw [← hdps] at hdm
    obtain ⟨o, _, rfl⟩ := List.mem_map.mp hdm
    exact (window_wf deg o pp).1
  obtain ⟨rows, hrows, h⟩ := bind_ok h
  obtain ⟨li, hli, h⟩ := bind_ok h
  have hli := idx_ok hli
  have hbn := hbig' _ (List.mem_of_getElem? hli)
  have hrn := hreach _ (List.mem_of_getElem? hli)
  have hus : i32ToUsize (sw : Int) = sw := by rw [i32ToUsize_nonneg hsw0]; exact Int.toNat_natCast _
  rw [bind_of_ok (i32_window (p := p) hsw0 hbn).1, hus, bind_of_ok (uadd_of_lt (lt_usizeMod (by omega))),
    bind_of_ok (uadd_of_lt (lt_usizeMod (by omega)))] at h
  obtain ⟨lr, hlr, h⟩ := bind_ok h
  have hlr := idx_ok hlr
  obtain ⟨best, hbest, h⟩ := bind_ok h
  have hrl := dpRows_length _ _ _ hrows
  rw [List.length_zip] at hrl
  have hrr := dpRows_real hrows (by rw [List.length_zip]; omega) (fun x hx => (hr _ (List.of_mem_zip hx).1).1)
    hdw (fun x hx => ⟨_, (i32_window (p := p) hsw0 (hbig' _ (List.of_mem_zip hx).2)).1⟩)
  -- the table as a function
  let V : Nat → Nat → ℝ := fun k o => ((rows.getD k ([], [])).1).getD o 0
  have hV : ∀ (k o : Nat) r v, rows[k]? = some r → r.1[o]? = some v → V k o = v := by
    intro k o r v h1 h2
    simp only [V, List.getD_eq_getElem?_getD, h1, Option.getD_some, h2]
  have hsimAt : ∀ (k o : Nat) m q, rps[k]? = some m → measurePatchSimilarity p m (deg.window o m.ncols) = .ok q →
      q.similarity = simAt p rps deg k o := by
    intro k o m q h1 h2
    unfold simAt
    rw [h1]
    simp only [h2]
  have hcell : ∀ k (hk : k < ix.length), ∃ r prev, rows[k]? = some r ∧ (k = 0 → prev = none) ∧
      (∀ j, k = j + 1 → ∃ m' i' r', (rps.zip ix)[j]? = some (m', i') ∧ rows[j]? = some r' ∧ prev = some (i', r'.1)) ∧
      (∀ o < deg.ncols, ¬ InWindow ix sw deg.ncols k o → V k o = 0) ∧
      ∀ o, InWindow ix sw deg.ncols k o → ∃ v b, r.1[o]? = some v ∧ r.2[o]? = some b ∧ |simAt p rps deg k o| ≤ 1 ∧
        dpCell p prev sw o (simAt p rps deg k o) = .ok (v, b) := by
    intro k hk
    have hkz : k < (rps.zip ix).length := by rw [List.length_zip]; omega
    obtain ⟨r, e1, prev, e2, e3, e4⟩ := dpRows_get _ _ _ hrows k rps[k] ix[k] (by
      rw [List.getElem?_eq_getElem hkz, List.getElem_zip])
    obtain ⟨_, _, lo, hi, g1, g2, g3⟩ := findOne_ok (row := r.1) (bt := r.2) e2
    have hb := hbig' _ (List.getElem_mem hk)
    obtain ⟨w1, w2⟩ := i32_window (p := p) hsw0 hb
    rw [w1] at g1; cases g1
    rw [w2] at g2; cases g2
    refine ⟨r, prev, e1, e3, e4, fun o ho hout => ?_, fun o ho => ?_⟩
    · obtain ⟨v, b, k1, k2, _, k4⟩ := g3 o ho
      rw [hV k o r v e1 k1, (k4 fun hc => hout ⟨ix[k], List.getElem?_eq_getElem hk, by omega, by omega, ho⟩).1]
      exact real_lit0
    · obtain ⟨i, i1, i2, i3, i4⟩ := ho
      rw [List.getElem?_eq_getElem hk] at i1
      cases i1
      obtain ⟨v, b, k1, k2, k3, _⟩ := g3 o i4
      obtain ⟨d, q, q1, q2, q3⟩ := (k3 ⟨by omega, by omega⟩).out
      rw [hdg o i4] at q1
      cases q1
      have hm := hr rps[k] (List.getElem_mem (by omega))
      have hq2 := q2
      rw [show deg.window o pp = deg.window o rps[k].ncols by rw [hm.2.2]] at hq2
      rw [← hsimAt k o rps[k] q (List.getElem?_eq_getElem (by omega)) hq2]
      exact ⟨v, b, k1, k2, measure_abs_le hm.1 (window_wf deg o pp).1 q2, q3⟩
  have hzero : ∀ r, rows[0]? = some r → ∀ o, InWindow ix sw deg.ncols 0 o → V 0 o = simAt p rps deg 0 o ∧
      r.2[o]? = some (usizeMod - 1) := by
    intro r0 hr0 o ho
    obtain ⟨r, prev, e1, e2, _, _, e4⟩ := hcell 0 hix0
    rw [hr0] at e1; cases e1
    obtain ⟨v, b, k1, k2, _, k4⟩ := e4 o ho
    rw [e2 rfl] at k4
    cases k4
    exact ⟨hV 0 o _ _ hr0 k1, k2⟩
  -- where the window of a patch begins
  have hfirst : ∀ k (hk : k < ix.length), InWindow ix sw deg.ncols k (ix[k] - sw) := by
    intro k hk
    have := hreach _ (List.getElem_mem hk)
    refine ⟨ix[k], List.getElem?_eq_getElem hk, by omega, by omega, by omega⟩
  have hstep0 : ∀ k, k + 1 < ix.length → ∀ r, rows[k + 1]? = some r → ∀ o, InWindow ix sw deg.ncols (k + 1) o →
      ∃ b, r.2[o]? = some b ∧ b ≤ o ∧
      (b = o → V (k + 1) o = V k o) ∧ (b < o → ix[k]! - sw ≤ b ∧ V (k + 1) o = simAt p rps deg (k + 1) o + V k b) ∧
      V k o ≤ V (k + 1) o ∧
      ∀ j < o, ix[k]! - sw ≤ j → simAt p rps deg (k + 1) o + V k j ≤ V (k + 1) o := by
    intro k hk r1 hr1 o ho
    have hoN : o < deg.ncols := ho.choose_spec.2.2.2
    obtain ⟨r, prev, e1, _, e3, _, e4⟩ := hcell (k + 1) hk
    rw [hr1] at e1; cases e1
    obtain ⟨v, b, k1, k2, k3, k4⟩ := e4 o ho
    obtain ⟨m', i', r', f1, f2, f3⟩ := e3 k rfl
    rw [f3] at k4
    have hi' := (List.of_mem_zip (List.mem_of_getElem? f1)).2
    have hik : ix[k]! = i' := by
      have := (List.getElem?_eq_some_iff.mp f1).2
      rw [List.getElem_zip] at this
      rw [getElem!_pos ix k (by omega)]
      exact (Prod.ext_iff.mp this).2
    obtain ⟨bb, bl, _, _⟩ := hrr k r' f2
    have hB : (k : ℝ) + 1 ≤ 18446744073709551616 := by
      have : k + 1 ≤ 18446744073709551616 := by omega
      exact_mod_cast this
    obtain ⟨same, s1, s2, s3, _, s5, s6, s7⟩ := dpCell_real hB bb k3 (i32_window (p := p) hsw0 (hbig' _ hi')).1 k4
    refine ⟨b, k2, s2, ?_, ?_, ?_, ?_⟩
    · intro he
      rw [hV _ _ _ _ hr1 k1, hV _ _ _ _ f2 s1, s5 he]
    · intro hlt
      obtain ⟨s6, x, x1, x2⟩ := s6 hlt
      rw [hV _ _ _ _ hr1 k1, hV _ _ _ _ f2 x1, x2, hik]
      exact ⟨by omega, rfl⟩
    · rw [hV _ _ _ _ hr1 k1, hV _ _ _ _ f2 s1]; exact s3
    · intro j hj hjl
      have hjl' : j < r'.1.length := by omega
      rw [hik] at hjl
      have := s7 j _ hj (by omega) (List.getElem?_eq_getElem hjl')
      rw [hV _ _ _ _ hr1 k1, hV _ _ _ _ f2 (List.getElem?_eq_getElem hjl')]
      exact this
  have hmono : ∀ k, (hk : k + 1 < ix.length) → ix[k] < ix[k + 1] := fun k hk =>
    List.pairwise_iff_getElem.mp hsorted k (k + 1) (by omega) hk (by omega)
  have hin : ∀ {k o : Nat} (hk : k < ix.length), InWindow ix sw deg.ncols k o → ix[k] - sw ≤ o ∧ o ≤ ix[k] + sw ∧ o < deg.ncols := by
    rintro k o hk ⟨i, i1, i2, i3, i4⟩
    rw [List.getElem?_eq_getElem hk] at i1
    cases i1
    exact ⟨by omega, i3, i4⟩
  -- positive inside the windows
  have hVpos : ∀ k, k < n → ∀ o, InWindow ix sw deg.ncols k o → 0 < V k o := by
    intro k
    induction k with
    | zero =>
      intro hk o ho
      have : 0 < rows.length := by omega
      rw [(hzero _ (List.getElem?_eq_getElem this) o ho).1]
      exact hpos 0 hk o ho
    | succ k ih =>
      intro hk o ho
      have hkx : k + 1 < ix.length := by omega
      have hk1 : k + 1 < rows.length := by omega
      obtain ⟨b, _, _, _, _, q5, q6⟩ := hstep0 k hkx _ (List.getElem?_eq_getElem hk1) o ho
      have h1 := ih (by omega) _ (hfirst k (by omega))
      have h2 := hin hkx ho
      have h3 := hmono k hkx
      by_cases hc : ix[k] - sw < o
      · have := q6 _ hc (by rw [getElem!_pos ix k (by omega)])
        have := hpos (k + 1) hk o ho
        linarith
      · have : o = ix[k] - sw := by omega
        rw [← this] at h1
        linarith
  have hsucc : ∀ k, k + 1 < n → ∀ r, rows[k + 1]? = some r → ∀ o, InWindow ix sw deg.ncols (k + 1) o → ∃ b, r.2[o]? = some b ∧
      b ≤ o ∧ InWindow ix sw deg.ncols k b ∧
      (b = o → V (k + 1) o = V k o) ∧ (b < o → V (k + 1) o = simAt p rps deg (k + 1) o + V k b) := by
    intro k hk r hr' o ho
    have hkx : k + 1 < ix.length := by omega
    have hoN := hin hkx ho
    obtain ⟨b, q1, q2, q3, q4, q5, q6⟩ := hstep0 k hkx r hr' o ho
    refine ⟨b, q1, q2, ?_, q3, fun hb => (q4 hb).2⟩
    by_contra hout
    obtain ⟨_, _, _, _, _, hz, _⟩ := hcell k (by omega)
    have hb0 := hz b (by omega) hout
    have h1 := hVpos k (by omega) _ (hfirst k (by omega))
    have h3 := hmono k hkx
    have h4 := hpos (k + 1) hk o ho
    by_cases hbo : b = o
    · have e := q3 hbo
      rw [hbo] at hb0
      have := hVpos (k + 1) hk o ho
      linarith
    · obtain ⟨q7, q8⟩ := q4 (by omega)
      rw [getElem!_pos ix k (by omega)] at q7
      have := q6 (ix[k] - sw) (by omega) (by rw [getElem!_pos ix k (by omega)])
      linarith
  -- the chosen end
  have hn1 : n - 1 < ix.length := by omega
  have hlin : ix[n - 1] = li := (List.getElem?_eq_some_iff.mp hli).2
  have hboth : InWindow ix sw deg.ncols (n - 1) best.2 ∧ ∀ o, InWindow ix sw deg.ncols (n - 1) o → V (n - 1) o ≤ V (n - 1) best.2 := by
    obtain ⟨lb, ll, _, _⟩ := hrr (n - 1) lr hlr
    obtain ⟨b1, b2, b3⟩ := lastOffsetScan_max _ _ _ hbest
    have hmem : ∀ o, InWindow ix sw deg.ncols (n - 1) o ↔
        o ∈ lastOffsets (max 0 ((li : Int) - (sw : Int))).toNat (li + sw + 1) deg.ncols := by
      intro o
      unfold lastOffsets
      constructor
      · intro ho
        have := hin hn1 ho
        rw [hlin] at this
        exact List.mem_map.mpr ⟨o - (max 0 ((li : Int) - (sw : Int))).toNat, List.mem_range.mpr (by omega), by omega⟩
      · intro ho
        obtain ⟨j, hj, rfl⟩ := List.mem_map.mp ho
        have := List.mem_range.mp hj
        exact ⟨li, hli, by omega, by omega, by omega⟩
    have hval : ∀ o < deg.ncols, ∃ v, lr.1[o]? = some v ∧ V (n - 1) o = v := by
      intro o ho
      have hol : o < lr.1.length := by omega
      exact ⟨_, List.getElem?_eq_getElem hol, hV _ _ _ _ hlr (List.getElem?_eq_getElem hol)⟩
    rcases b3 with b3 | ⟨b3, b4⟩
    · exfalso
      have hfl := hfirst (n - 1) hn1
      obtain ⟨v, hv, _⟩ := hval _ (hin hn1 hfl).2.2
      have h1 := b2 _ ((hmem _).mp hfl) v hv
      have h2 := lb v (List.mem_of_getElem? hv)
      rw [b3] at h1
      have hB : ((n - 1 : ℕ) : ℝ) + 1 ≤ 18446744073709551616 := by
        have : n - 1 + 1 ≤ 18446744073709551616 := by omega
        exact_mod_cast this
      have h3 := minVal_lt hB
      have := abs_le.mp h2
      dsimp only at h1
      linarith
    · refine ⟨(hmem _).mpr b3, fun o ho => ?_⟩
      obtain ⟨v, hv, e⟩ := hval o (hin hn1 ho).2.2
      rw [e, hV _ _ _ _ hlr b4]
      exact b2 o ((hmem o).mp ho) v hv
  obtain ⟨hbo, hbmax⟩ := hboth
  have hitems : ∀ (k : Nat) x, (rps.zip (ix.zip (rows.map Prod.snd)))[k]? = some x → ∃ r, rows[k]? = some r ∧ x.2.2 = r.2 ∧
      rps[k]? = some x.1 ∧ k < ix.length := by
    intro k x hk
    have hkl := (List.getElem?_eq_some_iff.mp hk).1
    rw [List.length_zip, List.length_zip, List.length_map] at hkl
    have he := (List.getElem?_eq_some_iff.mp hk).2
    refine ⟨rows[k]'(by omega), List.getElem?_eq_getElem _, ?_, ?_, by omega⟩
    · rw [← he, List.getElem_zip, List.getElem_zip, List.getElem_map]
    · rw [List.getElem?_eq_getElem (by omega), ← he, List.getElem_zip]
  have hnl : n ≤ (rps.zip (ix.zip (rows.map Prod.snd))).length := by
    rw [List.length_zip, List.length_zip, List.length_map]; omega
  obtain ⟨c, c1, c2, c3, _, _, c5, c6, c7⟩ := backtrack_window (s := simAt p rps deg) (V := V) (ix := ix) (sw := sw) wd (by omega) hnl (by
      intro k x hx o _ q hq
      obtain ⟨r, r1, r2, r3, _⟩ := hitems k x hx
      exact hsimAt k o _ q r3 hq) (by
      intro x hx o ho
      obtain ⟨r, r1, r2, _⟩ := hitems 0 x hx
      rw [r2]; exact hzero r r1 o ho) (by
      intro k x hkn hx o ho
      obtain ⟨r, r1, r2, _, r4⟩ := hitems (k + 1) x hx
      rw [r2]
      exact hsucc k hkn r r1 o ho) (n - 1) (by omega) best.2 rs hbo (by
      rw [show n - 1 + 1 = n by omega]; exact h)
  refine ⟨c, by omega, c3, ?_, by rw [c5, c6], ?_⟩
  · intro j hj
    obtain ⟨r, x, y, g1, g2, g3, g4⟩ := c7 j (by omega)
    exact ⟨r, x, _, g1, g2, (hitems j y g3).choose_spec.2.2.1, g4⟩
  · intro c' hc' hA
    obtain ⟨o, _, ho, hle⟩ := window_upper (N := deg.ncols) (n := n) (s := simAt p rps deg) (V := V)
      (fun o ho => by
        have : 0 < rows.length := by omega
        exact (hzero _ (List.getElem?_eq_getElem this) o ho).1)
      (fun k o hk ho => by
        have hk1 : k + 1 < rows.length := by omega
        obtain ⟨b, _, _, _, _, q5, q6⟩ := hstep0 k (by omega) _ (List.getElem?_eq_getElem hk1) o ho
        refine ⟨fun _ => q5, fun j hj hjw => q6 j hj ?_⟩
        rw [getElem!_pos ix k (by omega)]
        exact (hin (by omega) hjw).1) (n - 1) c' (by omega) (by omega) hA
    rw [c5]
    exact hle.trans (hbmax o ho)

end Visqol
