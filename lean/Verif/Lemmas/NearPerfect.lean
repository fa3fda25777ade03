import Verif.Lemmas.Perfect

/-! # When every patch can be matched almost perfectly -/

set_option linter.unusedSectionVars false

namespace Visqol

/-- The back trace from a cell collects similarities whose sum is the value of the cell. -/
theorem near_backtrack {p : Profile} {deg : Mat ℝ} {fd pd : ℝ} (wd : deg.WF) {V : Nat → Nat → ℝ → Prop}
    {items : List (Mat ℝ × Nat × List Nat)} {n : Nat} (hn : n ≤ items.length)
    (h0 : ∀ x, items[0]? = some x → ∀ o v, V 0 o v → o < deg.ncols ∧ x.2.2[o]? = some (usizeMod - 1) ∧
      ∀ q, measurePatchSimilarity p x.1 (deg.window o x.1.ncols) = .ok q → q.similarity = v)
    (hnc : deg.ncols < usizeMod)
    (hstep : ∀ (k : Nat) x, k + 1 < n → items[k + 1]? = some x → ∀ o v, V (k + 1) o v → o < deg.ncols ∧
      ∃ b v', x.2.2[o]? = some b ∧ b < o ∧ V k b v' ∧
        ∀ q, measurePatchSimilarity p x.1 (deg.window o x.1.ncols) = .ok q → v = q.similarity + v') :
    ∀ (k : Nat), k < n → ∀ (o : Nat) (v : ℝ) (rs : List (PatchSim ℝ)), V k o v →
      backtrack p deg fd pd ((items.take (k + 1)).reverse) o = .ok rs →
      rs.length = k + 1 ∧ (rs.map PatchSim.similarity).sum = v
  | k, hk, o, v, rs, ho, h => by
    have hkl : k < items.length := by omega
    have htake : (items.take (k + 1)).reverse = items[k] :: (items.take k).reverse := by
      rw [List.take_succ_eq_append_getElem hkl, List.reverse_append]; rfl
    rw [htake] at h
    have hgk := List.getElem?_eq_getElem hkl
    generalize items[k] = it at h hgk
    obtain ⟨m, i, bt⟩ := it
    unfold backtrack at h
    obtain ⟨⟨r, back⟩, h1, h⟩ := bind_ok h
    obtain ⟨rs', h2, h⟩ := bind_ok h
    cases h
    obtain ⟨b1, b2, _, _, b5⟩ := backtraceStep_reports h1 wd
    cases k with
    | zero =>
      cases h2
      obtain ⟨e1, e2, e3⟩ := h0 _ hgk o v ho
      dsimp only at e2
      rw [b1] at e2
      cases e2
      rw [if_neg (by unfold usizeMod at *; omega)] at b5
      obtain ⟨q, q1, q2, _⟩ := b5.scores
      refine ⟨rfl, ?_⟩
      simp [q2, e3 q q1]
    | succ k =>
      obtain ⟨e1, b, v', f1, f2, f3, f4⟩ := hstep k _ hk hgk o v ho
      dsimp only at f1
      rw [b1] at f1
      cases f1
      obtain ⟨c1, c2⟩ := near_backtrack wd hn h0 hnc hstep k (by omega) back v' rs' f3 h2
      rw [if_neg (by omega)] at b5
      obtain ⟨q, q1, q2, _⟩ := b5.scores
      refine ⟨by simp [c1], ?_⟩
      rw [List.map_append, List.sum_append, c2, f4 q q1]
      simp [q2]
      ring

/-- If every reference patch has a similarity of at least `1 - η` with the stretch of the degraded spectrogram at its own position, and the
number of patches times `η` is less than 1, then the reported similarities are at least `1 - η` on average, for every search radius. -/
theorem near_find {p : Profile} {rps : List (Mat ℝ)} {ix : List Nat} {deg : Mat ℝ} {fd : ℝ} {radius : Int}
    {rs : List (PatchSim ℝ)} {nb pp : Nat} {η : ℝ} (h : findMostOptimalDegPatches p rps ix deg fd radius = .ok rs)
    (hl : rps.length = ix.length) (hr : ∀ q ∈ rps, q.WF ∧ q.nrows = nb ∧ q.ncols = pp)
    (wd : deg.WF) (hN2 : deg.ncols + pp < 9223372036854775808) (hpp2 : pp ≤ 2147483647)
    (hlen : ix.length ≤ 18446744073709551615) (hrad : 0 ≤ radius) (hbig : ∀ i ∈ ix, (i : Int) + radius * pp ≤ 2147483647)
    (hsorted : ix.Pairwise (· < ·)) (hin : ∀ i ∈ ix, i < deg.ncols) (hη : 0 ≤ η) (hsmall : ix.length * η < 1)
    (hnear : ∀ (k : Nat) m i, rps[k]? = some m → ix[k]? = some i → ∀ q, measurePatchSimilarity p m (deg.window i pp) = .ok q →
      1 - η ≤ q.similarity) : rs.length * (1 - η) ≤ (rs.map PatchSim.similarity).sum := by
  have hrs := find_calcMax h hl (fun q hq => (hr q hq).2.2)
  unfold findMostOptimalDegPatches at h
  obtain ⟨first, hf, h⟩ := bind_ok h
  obtain ⟨sw, hsw, h⟩ := bind_ok h
  obtain ⟨n, hn, h⟩ := bind_ok h
  have hfp : first.ncols = pp := (hr _ (List.mem_of_getElem? (idx_ok hf))).2.2
  rw [hfp] at h hn hsw
  have hpos := calcMaxLoop_le hrs
  have hix0 : 0 < ix.length := by omega
  have hi1 := hbig _ (List.getElem_mem hix0)
  have hsw0 : 0 ≤ radius * (pp : Int) := Int.mul_nonneg hrad (by omega)
  rw [wrapI32_of_mem (z := (pp : Int)) (by omega) (by omega), i32_of_mem (by omega) (by omega)] at hsw
  cases hsw
  generalize hsw : radius * (pp : Int) = sw at *
  unfold calcMaxNumPatches at hn
  rw [if_neg (by omega), hrs] at hn
  cases hn
  rw [if_neg (by omega)] at h
  generalize hnn : rs.length = n at *
  have hum : deg.ncols + pp < usizeMod := lt_usizeMod hN2
  rw [bind_of_ok (mapE_of_forall (g := fun o => deg.window o pp) (fun o ho => by
    have := List.mem_range.mp ho
    exact buildDegradedPatch_window wd (by omega) (by omega)))] at h
  generalize hdps : (List.range deg.ncols).map (fun o => deg.window o pp) = dps at h
  have hdg : ∀ o < deg.ncols, dps[o]? = some (deg.window o pp) := by
    intro o ho
    rw [← hdps, List.getElem?_map, List.getElem?_range ho]; rfl
  have hdw : ∀ d ∈ dps, d.WF := by
    intro d hdm
    rw [← hdps] at hdm
    obtain ⟨o, _, rfl⟩ := List.mem_map.mp hdm
    exact (window_wf deg o pp).1
  obtain ⟨rows, hrows, h⟩ := bind_ok h
  obtain ⟨li, hli, h⟩ := bind_ok h
  have hli := idx_ok hli
  have hbn := hbig _ (List.mem_of_getElem? hli)
  have hus : i32ToUsize sw = sw.toNat := i32ToUsize_nonneg hsw0
  rw [bind_of_ok (i32_window (p := p) hsw0 hbn).1, hus, bind_of_ok (uadd_of_lt (lt_usizeMod (by omega))),
    bind_of_ok (uadd_of_lt (lt_usizeMod (by omega)))] at h
  obtain ⟨lr, hlr, h⟩ := bind_ok h
  have hlr := idx_ok hlr
  obtain ⟨best, hbest, h⟩ := bind_ok h
  have hrl := dpRows_length _ _ _ hrows
  rw [List.length_zip] at hrl
  have hrr := dpRows_real hrows (by rw [List.length_zip]; omega) (fun x hx => (hr _ (List.of_mem_zip hx).1).1)
    hdw (fun x hx => ⟨_, (i32_window (p := p) hsw0 (hbig _ (List.of_mem_zip hx).2)).1⟩)
  -- one row
  have hcell : ∀ k (hk : k < ix.length), ∃ r prev, rows[k]? = some r ∧ (k = 0 → prev = none) ∧
      (∀ j, (hj : k = j + 1) → ∃ m' r', (rps.zip ix)[j]? = some (m', ix[j]'(by omega)) ∧ rows[j]? = some r' ∧ prev = some (ix[j]'(by omega), r'.1)) ∧
      ∀ o < deg.ncols, ∃ v b, r.1[o]? = some v ∧ r.2[o]? = some b ∧
        (((ix[k] : Int) - sw ≤ o ∧ (o : Int) ≤ ix[k] + sw → ∃ q, measurePatchSimilarity p (rps[k]'(by omega)) (deg.window o pp) = .ok q ∧
          |q.similarity| ≤ 1 ∧ dpCell p prev sw o q.similarity = .ok (v, b)) ∧
        (¬ ((ix[k] : Int) - sw ≤ o ∧ (o : Int) ≤ ix[k] + sw) → v = 0)) := by
    intro k hk
    have hkz : k < (rps.zip ix).length := by rw [List.length_zip]; omega
    obtain ⟨r, e1, prev, e2, e3, e4⟩ := dpRows_get _ _ _ hrows k rps[k] ix[k] (by
      rw [List.getElem?_eq_getElem hkz, List.getElem_zip])
    refine ⟨r, prev, e1, e3, ?_, fun o ho => ?_⟩
    · intro j hj
      obtain ⟨m', i', r', f1, f2, f3⟩ := e4 j hj
      have hjz : j < (rps.zip ix).length := by rw [List.length_zip]; omega
      have : i' = ix[j]'(by omega) := by
        rw [List.getElem?_eq_getElem hjz, List.getElem_zip] at f1
        cases f1; rfl
      subst this
      exact ⟨m', r', f1, f2, f3⟩
    · obtain ⟨_, _, lo, hi, g1, g2, g3⟩ := findOne_ok (row := r.1) (bt := r.2) e2
      have hb := hbig _ (List.getElem_mem hk)
      obtain ⟨w1, w2⟩ := i32_window (p := p) hsw0 hb
      rw [w1] at g1; cases g1
      rw [w2] at g2; cases g2
      obtain ⟨v, b, k1, k2, k3, k4⟩ := g3 o ho
      refine ⟨v, b, k1, k2, fun hc => ?_, fun hc => ?_⟩
      · obtain ⟨d, q, q1, q2, q3⟩ := (k3 hc).out
        rw [hdg o ho] at q1
        cases q1
        have hm := hr rps[k] (List.getElem_mem (by omega))
        exact ⟨q, q2, measure_abs_le hm.1 (window_wf deg o pp).1 q2, q3⟩
      · rw [(k4 hc).1, real_lit0]
  have hBk : ∀ k : Nat, k < ix.length → (k : ℝ) + 1 ≤ 18446744073709551616 := by
    intro k hk
    have : k + 1 ≤ 18446744073709551616 := by omega
    exact_mod_cast this
  -- the diagonal
  have hdiag : ∀ k (hk : k < ix.length), ∀ r, rows[k]? = some r → ∃ v, r.1[ix[k]]? = some v ∧ (k + 1) * (1 - η) ≤ v := by
    intro k
    induction k with
    | zero =>
      intro hk r hrk
      obtain ⟨r', prev, e1, e2, _, e4⟩ := hcell 0 hk
      rw [hrk] at e1; cases e1
      obtain ⟨v, b, k1, k2, k3, _⟩ := e4 ix[0] (hin _ (List.getElem_mem hk))
      obtain ⟨q, q1, _, q3⟩ := k3 (by omega)
      rw [e2 rfl] at q3
      cases q3
      have := hnear 0 _ _ (List.getElem?_eq_getElem (by omega)) (List.getElem?_eq_getElem hk) q q1
      refine ⟨_, k1, ?_⟩
      push_cast
      linarith
    | succ k ih =>
      intro hk r hrk
      obtain ⟨r', prev, e1, _, e3, e4⟩ := hcell (k + 1) hk
      rw [hrk] at e1; cases e1
      obtain ⟨v, b, k1, k2, k3, _⟩ := e4 ix[k + 1] (hin _ (List.getElem_mem hk))
      obtain ⟨q, q1, qa, q3⟩ := k3 (by omega)
      obtain ⟨m', rp, f1, f2, f3⟩ := e3 k rfl
      rw [f3] at q3
      have hb := hbig _ (List.getElem_mem (show k < ix.length by omega))
      obtain ⟨bb, bl, _, _⟩ := hrr k rp f2
      obtain ⟨same, s1, s2, s3, s4, s5, s6, s7⟩ := dpCell_real (hBk k (by omega)) bb qa (i32_window (p := p) hsw0 hb).1 q3
      have hlt : ix[k] < ix[k + 1] := List.pairwise_iff_getElem.mp hsorted k (k + 1) (by omega) hk (by omega)
      obtain ⟨x, x1, x2⟩ := ih (by omega) rp f2
      have h7 := s7 ix[k] _ hlt (by omega) x1
      have := hnear (k + 1) _ _ (List.getElem?_eq_getElem (by omega)) (List.getElem?_eq_getElem hk) q q1
      refine ⟨v, k1, ?_⟩
      push_cast
      linarith
  have habove : ∀ k : Nat, k < ix.length → (k : ℝ) < (k + 1) * (1 - η) := by
    intro k hk
    have : ((k + 1 : ℕ) : ℝ) * η ≤ ix.length * η := mul_le_mul_of_nonneg_right (by exact_mod_cast hk) hη
    push_cast at this
    linarith
  -- cells of large value
  let V : Nat → Nat → ℝ → Prop := fun k o v => (k : ℝ) < v ∧ ∃ r, rows[k]? = some r ∧ r.1[o]? = some v
  have hVlt : ∀ k o v, V k o v → o < deg.ncols := by
    rintro k o v ⟨_, r, h1, h2⟩
    rw [← (hrr k r h1).2.1]
    exact (List.getElem?_eq_some_iff.mp h2).1
  have hcase : ∀ k (hk : k < ix.length) o v, V k o v → ∃ r prev b q, rows[k]? = some r ∧ (k = 0 → prev = none) ∧
      (∀ j, (hj : k = j + 1) → ∃ m' r', (rps.zip ix)[j]? = some (m', ix[j]'(by omega)) ∧ rows[j]? = some r' ∧ prev = some (ix[j]'(by omega), r'.1)) ∧
      r.2[o]? = some b ∧ measurePatchSimilarity p (rps[k]'(by omega)) (deg.window o pp) = .ok q ∧
      |q.similarity| ≤ 1 ∧ dpCell p prev sw o q.similarity = .ok (v, b) := by
    intro k hk o v hV
    have ho := hVlt k o v hV
    obtain ⟨hv, r, h1, h2⟩ := hV
    obtain ⟨r', prev, e1, e2, e3, e4⟩ := hcell k hk
    rw [h1] at e1; cases e1
    obtain ⟨v, b, k1, k2, k3, k4⟩ := e4 o ho
    rw [h2] at k1; cases k1
    by_cases hc : (ix[k] : Int) - sw ≤ o ∧ (o : Int) ≤ ix[k] + sw
    · obtain ⟨q, q1, q2, q3⟩ := k3 hc
      exact ⟨r, prev, b, q, h1, e2, e3, k2, q1, q2, q3⟩
    · exfalso
      have h0 : (0 : ℝ) ≤ (k : ℝ) := Nat.cast_nonneg _
      have := k4 hc
      linarith
  have hback : ∀ k (hk : k + 1 < ix.length) o v, V (k + 1) o v → ∃ r b q v', rows[k + 1]? = some r ∧ r.2[o]? = some b ∧ b < o ∧ V k b v' ∧
      measurePatchSimilarity p (rps[k + 1]'(by omega)) (deg.window o pp) = .ok q ∧ v = q.similarity + v' := by
    intro k hk o v hV
    obtain ⟨r, prev, b, q, h1, _, e3, h3, h4, h5, h6⟩ := hcase (k + 1) hk o v hV
    have hv := hV.1
    push_cast at hv
    obtain ⟨m', rp, f1, f2, f3⟩ := e3 k rfl
    rw [f3] at h6
    have hb := hbig _ (List.getElem_mem (show k < ix.length by omega))
    obtain ⟨bb, bl, _, _⟩ := hrr k rp f2
    obtain ⟨same, s1, s2, s3, s4, s5, s6, s7⟩ := dpCell_real (hBk k (by omega)) bb h5 (i32_window (p := p) hsw0 hb).1 h6
    have hne : b ≠ o := by
      intro he
      have := (abs_le.mp (bb _ (List.mem_of_getElem? s1))).2
      rw [← s5 he] at this
      linarith
    obtain ⟨_, x, x1, x2⟩ := s6 (by omega)
    have hq := (abs_le.mp h5).2
    exact ⟨r, b, q, x, h1, h3, by omega, ⟨by linarith, rp, f2, x1⟩, h4, x2⟩
  -- the chosen end
  obtain ⟨vb, hbv, hvb⟩ : ∃ v, V (n - 1) best.2 v ∧ ((n - 1 : ℕ) + 1) * (1 - η) ≤ v := by
    obtain ⟨b1, b2, b3⟩ := lastOffsetScan_max _ _ _ hbest
    have hnl : n - 1 < ix.length := by omega
    have hli' : ix[n - 1] = li := by
      rw [List.getElem?_eq_getElem hnl] at hli; exact Option.some.inj hli
    obtain ⟨w, hd, hw⟩ := hdiag (n - 1) hnl lr hlr
    rw [hli'] at hd
    have hlin := hin li (by rw [← hli']; exact List.getElem_mem hnl)
    have hm : li ∈ lastOffsets (max 0 ((li : Int) - sw)).toNat (li + sw.toNat + 1) deg.ncols := by
      unfold lastOffsets
      exact List.mem_map.mpr ⟨li - (max 0 ((li : Int) - sw)).toNat, List.mem_range.mpr (by omega), by omega⟩
    have hge := b2 li hm _ hd
    have hab := habove (n - 1) hnl
    rcases b3 with b3 | ⟨_, b4⟩
    · exfalso
      rw [b3] at hge
      have h3 := minVal_lt (hBk (n - 1) hnl)
      have : (0 : ℝ) ≤ ((n - 1 : ℕ) : ℝ) := Nat.cast_nonneg _
      dsimp only at hge
      linarith
    · exact ⟨best.1, ⟨by linarith, lr, hlr, b4⟩, by linarith⟩
  have hitems : ∀ (k : Nat) x, (rps.zip (ix.zip (rows.map Prod.snd)))[k]? = some x → ∃ r, rows[k]? = some r ∧ x.2.2 = r.2 ∧
      rps[k]? = some x.1 ∧ k < ix.length := by
    intro k x hk
    have hkl := (List.getElem?_eq_some_iff.mp hk).1
    rw [List.length_zip, List.length_zip, List.length_map] at hkl
    have he := (List.getElem?_eq_some_iff.mp hk).2
    refine ⟨rows[k]'(by omega), List.getElem?_eq_getElem _, ?_, ?_, by omega⟩
    · rw [← he, List.getElem_zip, List.getElem_zip, List.getElem_map]
    · rw [List.getElem?_eq_getElem (by omega), ← he, List.getElem_zip]
  have hnl : n ≤ (rps.zip (ix.zip (rows.map Prod.snd))).length := by
    rw [List.length_zip, List.length_zip, List.length_map]; omega
  obtain ⟨c1, c2⟩ := near_backtrack (V := V) wd hnl (by
      intro x hx o v ho
      obtain ⟨r, r1, r2, r3, r4⟩ := hitems 0 x hx
      obtain ⟨r', prev, b, q, h1, e2, _, h3, h4, _, h6⟩ := hcase 0 r4 o v ho
      rw [r1] at h1; cases h1
      rw [e2 rfl] at h6
      unfold dpCell at h6
      simp only [Except.ok.injEq, Prod.mk.injEq] at h6
      refine ⟨hVlt 0 o v ho, by rw [r2, h3, ← h6.2]; rfl, fun q' hq => ?_⟩
      rw [List.getElem?_eq_getElem (by omega)] at r3
      have r3 := Option.some.inj r3
      rw [← r3, (hr _ (List.getElem_mem (show 0 < rps.length by omega))).2.2, h4] at hq
      cases hq
      exact h6.1) (by omega) (by
      intro k x _ hx o v ho
      obtain ⟨r, r1, r2, r3, r4⟩ := hitems (k + 1) x hx
      obtain ⟨r', b, q, v', h1, h2, h3, h4, h5, h6⟩ := hback k r4 o v ho
      rw [r1] at h1; cases h1
      refine ⟨hVlt _ _ _ ho, b, v', by rw [r2]; exact h2, h3, h4, fun q' hq => ?_⟩
      rw [List.getElem?_eq_getElem (by omega)] at r3
      have r3 := Option.some.inj r3
      rw [← r3, (hr _ (List.getElem_mem (show k + 1 < rps.length by omega))).2.2, h5] at hq
      cases hq
      exact h6) (n - 1) (by omega) best.2 vb rs hbv (by
      rw [show n - 1 + 1 = n by omega]; exact h)
  rw [c2]
  have : ((n - 1 : ℕ) : ℝ) + 1 = n := by
    have : n - 1 + 1 = n := by omega
    exact_mod_cast this
  rw [this] at hvb
  exact hvb

end Visqol
