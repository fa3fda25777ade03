import Verif.Props.Optimal
import Verif.Props.Result

/-! # When every patch can be matched perfectly -/

set_option linter.unusedSectionVars false

namespace Visqol

/-- A similarity of 1 means band means 1 and deviations 0. -/
theorem measure_one {p : Profile} {a b : Mat ℝ} {r : PatchSim ℝ} (wa : a.WF) (wb : b.WF)
    (h : measurePatchSimilarity p a b = .ok r) (h1 : r.similarity = 1) :
    (∀ x ∈ r.freqBandMeans, x = 1) ∧ ∀ x ∈ r.freqBandStddevs, x = 0 := by
  obtain ⟨hs, hn, hc⟩ := measure_ok_inv h
  have hb := (C07_nsim_bounds p a b wa wb r h).1
  rw [measurePatchSimilarity_eq p a b wa wb hs hn hc] at h
  cases h
  simp only [PatchSim.new] at hb h1 ⊢
  have hl : ((Mat.ofFn a.nrows a.ncols fun i j => simCell (a.near i j) (b.near i j)).rows.map
      (fun r => Flt.sum r / Flt.ofNat a.ncols)).length = a.nrows := by simp [Mat.ofFn]
  have hn' : (a.nrows : ℝ) ≠ 0 := by positivity
  have hc' : (a.ncols : ℝ) ≠ 0 := by positivity
  have hmeans : ∀ x ∈ (Mat.ofFn a.nrows a.ncols fun i j => simCell (a.near i j) (b.near i j)).rows.map
      (fun r => Flt.sum r / Flt.ofNat a.ncols), x = 1 := by
    apply all_one_of_sum (fun x hx => (hb x hx).2)
    rw [hl]
    rw [real_sum] at h1
    exact (div_eq_one_iff_eq hn').mp h1
  refine ⟨hmeans, fun x hx => ?_⟩
  obtain ⟨row, hrow, rfl⟩ := List.mem_map.mp hx
  rw [stdRow_real]
  apply sampleStd_ones
  have hm := hmeans _ (List.mem_map.mpr ⟨row, hrow, rfl⟩)
  obtain ⟨i, _, rfl⟩ := mem_rows_ofFn hrow
  apply all_one_of_sum
  · intro x hx
    obtain ⟨j, _, rfl⟩ := List.mem_map.mp hx
    exact (simCell_bounds _ _).2
  · rw [real_sum, real_ofNat, div_eq_one_iff_eq hc'] at hm
    rw [hm]; simp

/-- The back trace from a cell of value `k + 1` (the largest possible in row `k`) finds similarity 1 throughout. -/
theorem perfect_backtrack {p : Profile} {deg : Mat ℝ} {fd pd : ℝ} (wd : deg.WF) (hnc : deg.ncols < usizeMod) {V : Nat → Nat → Prop}
    {items : List (Mat ℝ × Nat × List Nat)} {n : Nat} (hn : n ≤ items.length)
    (hs : ∀ (k : Nat) x, items[k]? = some x → ∀ o, V k o → ∀ q,
      measurePatchSimilarity p x.1 (deg.window o x.1.ncols) = .ok q → q.similarity = 1)
    (h0 : ∀ x, items[0]? = some x → ∀ o, V 0 o → o < deg.ncols ∧ x.2.2[o]? = some (usizeMod - 1))
    (hstep : ∀ (k : Nat) x, k + 1 < n → items[k + 1]? = some x → ∀ o, V (k + 1) o → o < deg.ncols ∧ ∃ b, x.2.2[o]? = some b ∧ b < o ∧ V k b) :
    ∀ (k : Nat), k < n → ∀ (o : Nat) (rs : List (PatchSim ℝ)), V k o →
      backtrack p deg fd pd ((items.take (k + 1)).reverse) o = .ok rs →
      rs.length = k + 1 ∧ ∀ j < k + 1, ∃ r x y, rs[j]? = some r ∧ items[j]? = some y ∧ x < deg.ncols ∧ r.similarity = 1 ∧
        MatchedAt p deg y.1 fd pd x r
  | k, hk, o, rs, ho, h => by
    have hkl : k < items.length := by omega
    have htake : (items.take (k + 1)).reverse = items[k] :: (items.take k).reverse := by
      rw [List.take_succ_eq_append_getElem hkl, List.reverse_append]; rfl
    rw [htake] at h
    have hgk := List.getElem?_eq_getElem hkl
    generalize items[k] = it at h hgk
    obtain ⟨m, i, bt⟩ := it
    unfold backtrack at h
    obtain ⟨⟨r, back⟩, h1, h⟩ := bind_ok h
    obtain ⟨rs', h2, h⟩ := bind_ok h
    cases h
    obtain ⟨b1, b2, _, _, b5⟩ := backtraceStep_reports h1 wd
    have hsim : MatchedAt p deg m fd pd o r → r.similarity = 1 := by
      intro hr
      obtain ⟨q, q1, q2, _⟩ := hr.scores
      rw [q2]
      exact hs k _ hgk o ho q q1
    cases k with
    | zero =>
      cases h2
      obtain ⟨e1, e2⟩ := h0 _ hgk o ho
      dsimp only at e2
      rw [b1] at e2
      cases e2
      rw [if_neg (by unfold usizeMod at *; omega)] at b5
      refine ⟨rfl, fun j hj => ?_⟩
      obtain rfl : j = 0 := by omega
      exact ⟨r, o, _, rfl, hgk, e1, hsim b5, b5⟩
    | succ k =>
      obtain ⟨e1, b, f1, f2, f3⟩ := hstep k _ hk hgk o ho
      dsimp only at f1
      rw [b1] at f1
      cases f1
      obtain ⟨c1, c2⟩ := perfect_backtrack wd hnc hn hs h0 hstep k (by omega) back rs' f3 h2
      rw [if_neg (by omega)] at b5
      refine ⟨by simp [c1], fun j hj => ?_⟩
      by_cases hjk : j < k + 1
      · obtain ⟨r', x', y', g1, g2⟩ := c2 j hjk
        refine ⟨r', x', y', ?_, g2⟩
        rw [List.getElem?_append_left (by omega)]; exact g1
      · obtain rfl : j = k + 1 := by omega
        refine ⟨r, o, _, ?_, hgk, e1, hsim b5, b5⟩
        rw [List.getElem?_append_right (by omega)]; simp [c1]

/-- If every reference patch has similarity 1 with the stretch of the degraded spectrogram at its own position, then every reported
patch is matched with similarity 1, for every search radius. -/
theorem perfect_find {p : Profile} {rps : List (Mat ℝ)} {ix : List Nat} {deg : Mat ℝ} {fd : ℝ} {radius : Int}
    {rs : List (PatchSim ℝ)} {nb pp : Nat} (h : findMostOptimalDegPatches p rps ix deg fd radius = .ok rs)
    (hl : rps.length = ix.length) (hr : ∀ q ∈ rps, q.WF ∧ q.nrows = nb ∧ q.ncols = pp)
    (wd : deg.WF) (hN2 : deg.ncols + pp < 9223372036854775808) (hpp2 : pp ≤ 2147483647)
    (hlen : ix.length ≤ 18446744073709551615) (hrad : 0 ≤ radius) (hbig : ∀ i ∈ ix, (i : Int) + radius * pp ≤ 2147483647)
    (hsorted : ix.Pairwise (· < ·)) (hin : ∀ i ∈ ix, i < deg.ncols)
    (hone : ∀ (k : Nat) m i, rps[k]? = some m → ix[k]? = some i → ∀ q, measurePatchSimilarity p m (deg.window i pp) = .ok q →
      q.similarity = 1) :
    ∀ (k : Nat) r, rs[k]? = some r → r.similarity = 1 ∧ ∃ m o, rps[k]? = some m ∧ o < deg.ncols ∧
      MatchedAt p deg m fd (fd * pp) o r := by
  have hrs := find_calcMax h hl (fun q hq => (hr q hq).2.2)
  unfold findMostOptimalDegPatches at h
  obtain ⟨first, hf, h⟩ := bind_ok h
  obtain ⟨sw, hsw, h⟩ := bind_ok h
  obtain ⟨n, hn, h⟩ := bind_ok h
  have hfp : first.ncols = pp := (hr _ (List.mem_of_getElem? (idx_ok hf))).2.2
  rw [hfp] at h hn hsw
  have hpos := calcMaxLoop_le hrs
  have hix0 : 0 < ix.length := by omega
  have hi1 := hbig _ (List.getElem_mem hix0)
  have hsw0 : 0 ≤ radius * (pp : Int) := Int.mul_nonneg hrad (by omega)
  rw [wrapI32_of_mem (z := (pp : Int)) (by omega) (by omega), i32_of_mem (by omega) (by omega)] at hsw
  cases hsw
  generalize hsw : radius * (pp : Int) = sw at *
  unfold calcMaxNumPatches at hn
  rw [if_neg (by omega), hrs] at hn
  cases hn
  rw [if_neg (by omega)] at h
  generalize hnn : rs.length = n at *
  have hum : deg.ncols + pp < usizeMod := lt_usizeMod hN2
  rw [bind_of_ok (mapE_of_forall (g := fun o => deg.window o pp) (fun o ho => by
    have := List.mem_range.mp ho
    exact buildDegradedPatch_window wd (by omega) (by omega)))] at h
  generalize hdps : (List.range deg.ncols).map (fun o => deg.window o pp) = dps at h
  have hdg : ∀ o < deg.ncols, dps[o]? = some (deg.window o pp) := by
    intro o ho
    rw [← hdps, List.getElem?_map, List.getElem?_range ho]; rfl
  have hdw : ∀ d ∈ dps, d.WF := by
    intro d hdm
    rw [← hdps] at hdm
    obtain ⟨o, _, rfl⟩ := List.mem_map.mp hdm
    exact (window_wf deg o pp).1
  obtain ⟨rows, hrows, h⟩ := bind_ok h
  obtain ⟨li, hli, h⟩ := bind_ok h
  have hli := idx_ok hli
  have hbn := hbig _ (List.mem_of_getElem? hli)
  have hus : i32ToUsize sw = sw.toNat := i32ToUsize_nonneg hsw0
  rw [bind_of_ok (i32_window (p := p) hsw0 hbn).1, hus, bind_of_ok (uadd_of_lt (lt_usizeMod (by omega))),
    bind_of_ok (uadd_of_lt (lt_usizeMod (by omega)))] at h
  obtain ⟨lr, hlr, h⟩ := bind_ok h
  have hlr := idx_ok hlr
  obtain ⟨best, hbest, h⟩ := bind_ok h
  have hrl := dpRows_length _ _ _ hrows
  rw [List.length_zip] at hrl
  have hrr := dpRows_real hrows (by rw [List.length_zip]; omega) (fun x hx => (hr _ (List.of_mem_zip hx).1).1)
    hdw (fun x hx => ⟨_, (i32_window (p := p) hsw0 (hbig _ (List.of_mem_zip hx).2)).1⟩)
  -- one row
  have hcell : ∀ k (hk : k < ix.length), ∃ r prev, rows[k]? = some r ∧ (k = 0 → prev = none) ∧
      (∀ j, (hj : k = j + 1) → ∃ m' r', (rps.zip ix)[j]? = some (m', ix[j]'(by omega)) ∧ rows[j]? = some r' ∧ prev = some (ix[j]'(by omega), r'.1)) ∧
      ∀ o < deg.ncols, ∃ v b, r.1[o]? = some v ∧ r.2[o]? = some b ∧
        (((ix[k] : Int) - sw ≤ o ∧ (o : Int) ≤ ix[k] + sw → ∃ q, measurePatchSimilarity p (rps[k]'(by omega)) (deg.window o pp) = .ok q ∧
          |q.similarity| ≤ 1 ∧ dpCell p prev sw o q.similarity = .ok (v, b)) ∧
        (¬ ((ix[k] : Int) - sw ≤ o ∧ (o : Int) ≤ ix[k] + sw) → v = 0)) := by
    intro k hk
    have hkz : k < (rps.zip ix).length := by rw [List.length_zip]; omega
    obtain ⟨r, e1, prev, e2, e3, e4⟩ := dpRows_get _ _ _ hrows k rps[k] ix[k] (by
      rw [List.getElem?_eq_getElem hkz, List.getElem_zip])
    refine ⟨r, prev, e1, e3, ?_, fun o ho => ?_⟩
    · intro j hj
      obtain ⟨m', i', r', f1, f2, f3⟩ := e4 j hj
      have hjz : j < (rps.zip ix).length := by rw [List.length_zip]; omega
      have : i' = ix[j]'(by omega) := by
        rw [List.getElem?_eq_getElem hjz, List.getElem_zip] at f1
        cases f1; rfl
      subst this
      exact ⟨m', r', f1, f2, f3⟩
    · obtain ⟨_, _, lo, hi, g1, g2, g3⟩ := findOne_ok (row := r.1) (bt := r.2) e2
      have hb := hbig _ (List.getElem_mem hk)
      obtain ⟨w1, w2⟩ := i32_window (p := p) hsw0 hb
      rw [w1] at g1; cases g1
      rw [w2] at g2; cases g2
      obtain ⟨v, b, k1, k2, k3, k4⟩ := g3 o ho
      refine ⟨v, b, k1, k2, fun hc => ?_, fun hc => ?_⟩
      · obtain ⟨d, q, q1, q2, q3⟩ := (k3 hc).out
        rw [hdg o ho] at q1
        cases q1
        have hm := hr rps[k] (List.getElem_mem (by omega))
        exact ⟨q, q2, measure_abs_le hm.1 (window_wf deg o pp).1 q2, q3⟩
      · rw [(k4 hc).1, real_lit0]
  have hBk : ∀ k : Nat, k < ix.length → (k : ℝ) + 1 ≤ 18446744073709551616 := by
    intro k hk
    have : k + 1 ≤ 18446744073709551616 := by omega
    exact_mod_cast this
  -- the diagonal
  have hdiag : ∀ k (hk : k < ix.length), ∀ r, rows[k]? = some r → r.1[ix[k]]? = some ((k : ℝ) + 1) := by
    intro k
    induction k with
    | zero =>
      intro hk r hrk
      obtain ⟨r', prev, e1, e2, _, e4⟩ := hcell 0 hk
      rw [hrk] at e1; cases e1
      obtain ⟨v, b, k1, k2, k3, _⟩ := e4 ix[0] (hin _ (List.getElem_mem hk))
      obtain ⟨q, q1, _, q3⟩ := k3 (by omega)
      rw [e2 rfl] at q3
      cases q3
      rw [k1, hone 0 _ _ (List.getElem?_eq_getElem (by omega)) (List.getElem?_eq_getElem hk) q q1]
      simp
    | succ k ih =>
      intro hk r hrk
      obtain ⟨r', prev, e1, _, e3, e4⟩ := hcell (k + 1) hk
      rw [hrk] at e1; cases e1
      obtain ⟨v, b, k1, k2, k3, _⟩ := e4 ix[k + 1] (hin _ (List.getElem_mem hk))
      obtain ⟨q, q1, qa, q3⟩ := k3 (by omega)
      obtain ⟨m', rp, f1, f2, f3⟩ := e3 k rfl
      rw [f3] at q3
      have hb := hbig _ (List.getElem_mem (show k < ix.length by omega))
      obtain ⟨bb, bl, _, _⟩ := hrr k rp f2
      obtain ⟨same, s1, s2, s3, s4, s5, s6, s7⟩ := dpCell_real (hBk k (by omega)) bb qa (i32_window (p := p) hsw0 hb).1 q3
      have hlt : ix[k] < ix[k + 1] := List.pairwise_iff_getElem.mp hsorted k (k + 1) (by omega) hk (by omega)
      have h7 := s7 ix[k] _ hlt (by omega) (ih (by omega) rp f2)
      rw [hone (k + 1) _ _ (List.getElem?_eq_getElem (by omega)) (List.getElem?_eq_getElem hk) q q1] at h7
      have h8 := (abs_le.mp s4).2
      have hv : v = ((k + 1 : ℕ) : ℝ) + 1 := by
        push_cast
        linarith
      rw [k1, hv]
  -- cells of the largest value
  let V : Nat → Nat → Prop := fun k o => ∃ r, rows[k]? = some r ∧ r.1[o]? = some ((k : ℝ) + 1)
  have hVlt : ∀ k o, V k o → o < deg.ncols := by
    rintro k o ⟨r, h1, h2⟩
    rw [← (hrr k r h1).2.1]
    exact (List.getElem?_eq_some_iff.mp h2).1
  have hcase : ∀ k (hk : k < ix.length) o, V k o → ∃ r prev b q, rows[k]? = some r ∧ (k = 0 → prev = none) ∧
      (∀ j, (hj : k = j + 1) → ∃ m' r', (rps.zip ix)[j]? = some (m', ix[j]'(by omega)) ∧ rows[j]? = some r' ∧ prev = some (ix[j]'(by omega), r'.1)) ∧
      r.2[o]? = some b ∧ measurePatchSimilarity p (rps[k]'(by omega)) (deg.window o pp) = .ok q ∧
      |q.similarity| ≤ 1 ∧ dpCell p prev sw o q.similarity = .ok ((k : ℝ) + 1, b) := by
    intro k hk o hV
    have ho := hVlt k o hV
    obtain ⟨r, h1, h2⟩ := hV
    obtain ⟨r', prev, e1, e2, e3, e4⟩ := hcell k hk
    rw [h1] at e1; cases e1
    obtain ⟨v, b, k1, k2, k3, k4⟩ := e4 o ho
    rw [h2] at k1; cases k1
    by_cases hc : (ix[k] : Int) - sw ≤ o ∧ (o : Int) ≤ ix[k] + sw
    · obtain ⟨q, q1, q2, q3⟩ := k3 hc
      exact ⟨r, prev, b, q, h1, e2, e3, k2, q1, q2, q3⟩
    · exfalso
      have h0 : (0 : ℝ) ≤ (k : ℝ) := Nat.cast_nonneg _
      have := k4 hc
      linarith
  have hback : ∀ k (hk : k + 1 < ix.length) o, V (k + 1) o → ∃ r b q, rows[k + 1]? = some r ∧ r.2[o]? = some b ∧ b < o ∧ V k b ∧
      measurePatchSimilarity p (rps[k + 1]'(by omega)) (deg.window o pp) = .ok q ∧ q.similarity = 1 := by
    intro k hk o hV
    obtain ⟨r, prev, b, q, h1, _, e3, h3, h4, h5, h6⟩ := hcase (k + 1) hk o hV
    obtain ⟨m', rp, f1, f2, f3⟩ := e3 k rfl
    rw [f3] at h6
    have hb := hbig _ (List.getElem_mem (show k < ix.length by omega))
    obtain ⟨bb, bl, _, _⟩ := hrr k rp f2
    obtain ⟨same, s1, s2, s3, s4, s5, s6, s7⟩ := dpCell_real (hBk k (by omega)) bb h5 (i32_window (p := p) hsw0 hb).1 h6
    have hne : b ≠ o := by
      intro he
      have := (abs_le.mp (bb _ (List.mem_of_getElem? s1))).2
      rw [← s5 he] at this
      push_cast at this
      linarith
    obtain ⟨_, x, x1, x2⟩ := s6 (by omega)
    have hx := (abs_le.mp (bb _ (List.mem_of_getElem? x1))).2
    have hq := (abs_le.mp h5).2
    push_cast at x2
    have hx1 : x = (k : ℝ) + 1 := by linarith
    refine ⟨r, b, q, h1, h3, by omega, ⟨rp, f2, by rw [x1, hx1]⟩, h4, by linarith⟩
  have hsim : ∀ k (hk : k < ix.length) o, V k o → ∀ q, measurePatchSimilarity p (rps[k]'(by omega)) (deg.window o pp) = .ok q →
      q.similarity = 1 := by
    intro k hk o hV q hq
    cases k with
    | zero =>
      obtain ⟨r, prev, b, q', _, e2, _, _, h4, _, h6⟩ := hcase 0 hk o hV
      rw [hq] at h4; cases h4
      rw [e2 rfl] at h6
      unfold dpCell at h6
      simp only [Except.ok.injEq, Prod.mk.injEq] at h6
      rw [h6.1]; simp
    | succ k =>
      obtain ⟨_, _, q', _, _, _, _, h4, h5⟩ := hback k hk o hV
      rw [hq] at h4; cases h4; exact h5
  -- the chosen end
  have hbv : V (n - 1) best.2 := by
    obtain ⟨b1, b2, b3⟩ := lastOffsetScan_max _ _ _ hbest
    have hnl : n - 1 < ix.length := by omega
    have hli' : ix[n - 1] = li := by
      rw [List.getElem?_eq_getElem hnl] at hli; exact Option.some.inj hli
    have hd := hdiag (n - 1) hnl lr hlr
    rw [hli'] at hd
    have hlin := hin li (by rw [← hli']; exact List.getElem_mem hnl)
    have hm : li ∈ lastOffsets (max 0 ((li : Int) - sw)).toNat (li + sw.toNat + 1) deg.ncols := by
      unfold lastOffsets
      exact List.mem_map.mpr ⟨li - (max 0 ((li : Int) - sw)).toNat, List.mem_range.mpr (by omega), by omega⟩
    have hge := b2 li hm _ hd
    rcases b3 with b3 | ⟨_, b4⟩
    · exfalso
      rw [b3] at hge
      have h3 := minVal_lt (hBk (n - 1) hnl)
      have : (0 : ℝ) ≤ ((n - 1 : ℕ) : ℝ) := Nat.cast_nonneg _
      dsimp only at hge
      linarith
    · have := (abs_le.mp ((hrr (n - 1) lr hlr).1 _ (List.mem_of_getElem? b4))).2
      exact ⟨lr, hlr, by rw [b4, le_antisymm this hge]⟩
  have hitems : ∀ (k : Nat) x, (rps.zip (ix.zip (rows.map Prod.snd)))[k]? = some x → ∃ r, rows[k]? = some r ∧ x.2.2 = r.2 ∧
      rps[k]? = some x.1 ∧ k < ix.length := by
    intro k x hk
    have hkl := (List.getElem?_eq_some_iff.mp hk).1
    rw [List.length_zip, List.length_zip, List.length_map] at hkl
    have he := (List.getElem?_eq_some_iff.mp hk).2
    refine ⟨rows[k]'(by omega), List.getElem?_eq_getElem _, ?_, ?_, by omega⟩
    · rw [← he, List.getElem_zip, List.getElem_zip, List.getElem_map]
    · rw [List.getElem?_eq_getElem (by omega), ← he, List.getElem_zip]
  have hnl : n ≤ (rps.zip (ix.zip (rows.map Prod.snd))).length := by
    rw [List.length_zip, List.length_zip, List.length_map]; omega
  obtain ⟨_, c2⟩ := perfect_backtrack (V := V) wd (by omega) hnl (by
      intro k x hx o ho q hq
      obtain ⟨r, r1, r2, r3, r4⟩ := hitems k x hx
      rw [List.getElem?_eq_getElem (by omega)] at r3
      have r3 := Option.some.inj r3
      rw [← r3, (hr _ (List.getElem_mem (show k < rps.length by omega))).2.2] at hq
      exact hsim k r4 o ho q hq) (by
      intro x hx o ho
      obtain ⟨r, r1, r2, _, r4⟩ := hitems 0 x hx
      obtain ⟨r', prev, b, q, h1, e2, _, h3, _, _, h6⟩ := hcase 0 r4 o ho
      rw [r1] at h1; cases h1
      rw [e2 rfl] at h6
      unfold dpCell at h6
      simp only [Except.ok.injEq, Prod.mk.injEq] at h6
      rw [r2, h3, ← h6.2]
      exact ⟨hVlt 0 o ho, rfl⟩) (by
      intro k x _ hx o ho
      obtain ⟨r, r1, r2, _, r4⟩ := hitems (k + 1) x hx
      obtain ⟨r', b, q, h1, h2, h3, h4, _⟩ := hback k r4 o ho
      rw [r1] at h1; cases h1
      exact ⟨hVlt _ _ ho, b, by rw [r2]; exact h2, h3, h4⟩) (n - 1) (by omega) best.2 rs hbv (by
      rw [show n - 1 + 1 = n by omega]; exact h)
  intro k r hk
  have hkn : k < n := by rw [← hnn]; exact (List.getElem?_eq_some_iff.mp hk).1
  obtain ⟨r', x, y, g1, g2, g3, g4, g5⟩ := c2 k (by omega)
  rw [hk] at g1; cases g1
  exact ⟨g4, _, x, (hitems k y g2).choose_spec.2.2.1, g3, g5⟩

end Visqol
