import Verif.Lemmas.MatchReal
import Verif.Props.Patches
import Verif.Props.Match
import Mathlib.Algebra.BigOperators.Group.List.Basic

/-! # Coarse matching does not panic (C34) and is optimal (C33), in exact arithmetic -/

set_option linter.unusedSectionVars false

namespace Visqol

theorem calcMaxLoop_total {p : Profile} {ix : List Nat} {numDeg pp : Nat} (hsorted : ix.Pairwise (· < ·)) :
    ∀ {m : Nat}, m ≤ ix.length → (∃ k i, k < m ∧ ix[k]? = some i ∧ pp / 2 ≤ i ∧ i ≤ numDeg + pp / 2) →
      ∃ n, calcMaxNumPatchesLoop p ix numDeg pp m = .ok n
  | 0, _, ⟨k, i, h, _⟩ => by omega
  | m + 1, hm, ⟨k, i, hk, hi, h1, h2⟩ => by
    unfold calcMaxNumPatchesLoop
    rw [idx_of_lt (by omega : m < ix.length)]
    simp only [ok_bind]
    have e2 := List.getElem?_eq_some_iff.mp hi
    have hge : i ≤ ix[m] := by
      by_cases he : k = m
      · subst he; rw [← e2.2]
      · have := List.pairwise_iff_getElem.mp hsorted k m e2.1 (by omega) (by omega)
        rw [e2.2] at this; omega
    rw [usub_of_le (by omega)]
    simp only [ok_bind]
    split
    · rename_i hgt
      refine calcMaxLoop_total hsorted (by omega) ⟨k, i, ?_, hi, h1, h2⟩
      by_contra hc
      obtain rfl : k = m := by omega
      rw [e2.2] at hgt; omega
    · exact ⟨_, rfl⟩

theorem bind_of_ok {α β : Type} {x : M α} {a : α} {f : α → M β} (h : x = .ok a) : (x >>= f) = f a := by rw [h]; rfl

theorem lt_usizeMod {n : Nat} (h : n < 9223372036854775808) : n < usizeMod := by unfold usizeMod; omega

theorem window_wf {F : Type} [Flt F] (m : Mat F) (o n : Nat) :
    (m.window o n).WF ∧ (m.window o n).nrows = m.nrows ∧ (m.window o n).ncols = n := by
  refine ⟨?_, by simp [Mat.window, Mat.nrows], rfl⟩
  intro r hr
  obtain ⟨r', _, rfl⟩ := List.mem_map.mp hr
  simp [Mat.window]

theorem i32_window {p : Profile} {i : Nat} {sw : Int} (h0 : 0 ≤ sw) (h : (i : Int) + sw ≤ 2147483647) :
    i32 p (wrapI32 i - sw) = .ok ((i : Int) - sw) ∧ i32 p (wrapI32 i + sw) = .ok ((i : Int) + sw) := by
  rw [wrapI32_of_mem (by omega) (by omega), i32_of_mem (by omega) (by omega), i32_of_mem (by omega) (by omega)]
  exact ⟨rfl, rfl⟩

theorem dpRows_lengths {F : Type} [Flt F] {p : Profile} {nc : Nat} {dps : List (Mat F)} {sw : Int} {l : List (Mat F × Nat)}
    {rows : List (List F × List Nat)} {prev : Option (Nat × List F)} (h : dpRows p nc dps sw prev l = .ok rows) (k : Nat)
    (r : List F × List Nat) (hr : rows[k]? = some r) : r.1.length = nc ∧ r.2.length = nc := by
  have hrl := dpRows_length _ _ _ h
  have hk : k < l.length := by rw [← hrl]; exact (List.getElem?_eq_some_iff.mp hr).1
  obtain ⟨r', e1, prev, e2, _⟩ := dpRows_get _ _ _ h k _ _ (List.getElem?_eq_getElem hk)
  rw [hr] at e1; cases e1
  obtain ⟨g1, g2, _⟩ := findOne_ok (row := r.1) (bt := r.2) e2
  exact ⟨g1, g2⟩

/-- Coarse matching succeeds in any arithmetic in which no back pointer of a later patch points forward. -/
theorem find_total {F : Type} [Flt F] (p : Profile) {rps : List (Mat F)} {ix : List Nat} {deg : Mat F} {fd : F} {radius : Int} {nb pp : Nat}
    (hl : rps.length = ix.length) (hr : ∀ q ∈ rps, q.WF ∧ q.nrows = nb ∧ q.ncols = pp) (hnb : 0 < nb) (hpp : 0 < pp)
    (wd : deg.WF) (hd : deg.nrows = nb) (hN : 0 < deg.ncols) (hN2 : deg.ncols + pp < 9223372036854775808)
    (hrad : 0 ≤ radius) (hbig : ∀ i ∈ ix, (i : Int) + radius * pp ≤ 2147483647)
    (hpp2 : pp ≤ 2147483647)
    (hsorted : ix.Pairwise (· < ·)) (husable : ∃ i ∈ ix, pp / 2 ≤ i ∧ i ≤ deg.ncols + pp / 2)
    (hreach : ∀ i ∈ ix, (i : Int) - radius * pp ≤ deg.ncols)
    (hback : ∀ rows, dpRows p deg.ncols ((List.range deg.ncols).map fun o => deg.window o pp) (radius * pp) none (rps.zip ix) = .ok rows →
      ∀ (k : Nat) r, rows[k]? = some r → 0 < k → ∀ (o : Nat) b, r.2[o]? = some b → b ≤ o) :
    ∃ rs, findMostOptimalDegPatches p rps ix deg fd radius = .ok rs := by
  obtain ⟨iu, hiu, hu1, hu2⟩ := husable
  have hix0 : 0 < ix.length := List.length_pos_of_mem hiu
  have hrp0 : 0 < rps.length := by omega
  have hsw0 : 0 ≤ radius * pp := Int.mul_nonneg hrad (by omega)
  have hswb := hbig iu hiu
  unfold findMostOptimalDegPatches
  rw [idx_of_lt hrp0]
  simp only [ok_bind, (hr _ (List.getElem_mem hrp0)).2.2]
  rw [wrapI32_of_mem (z := (pp : Int)) (by omega) (by omega), i32_of_mem (by omega) (by omega)]
  simp only [ok_bind]
  generalize hsw : radius * (pp : Int) = sw at *
  unfold calcMaxNumPatches
  rw [if_neg (by omega)]
  obtain ⟨ku, hku⟩ := List.getElem?_of_mem hiu
  obtain ⟨n, hn⟩ := calcMaxLoop_total (p := p) (numDeg := deg.ncols) (pp := pp) hsorted (Nat.le_refl _)
    ⟨ku, iu, (List.getElem?_eq_some_iff.mp hku).1, hku, hu1, hu2⟩
  have hn' := calcMaxLoop_le hn
  rw [hn]
  simp only [ok_bind]
  rw [if_neg (by omega)]
  have hum : deg.ncols + pp < usizeMod := lt_usizeMod hN2
  rw [mapE_of_forall (g := fun o => deg.window o pp) (fun o ho => by
    have := List.mem_range.mp ho
    exact buildDegradedPatch_window wd (by omega) (by omega))]
  simp only [ok_bind]
  generalize hdps : (List.range deg.ncols).map (fun o => deg.window o pp) = dps
  have hdl : dps.length = deg.ncols := by rw [← hdps]; simp
  have hdw : ∀ d ∈ dps, d.WF ∧ d.nrows = nb ∧ d.ncols = pp := by
    intro d hdm
    rw [← hdps] at hdm
    obtain ⟨o, _, rfl⟩ := List.mem_map.mp hdm
    have := window_wf deg o pp
    exact ⟨this.1, this.2.1.trans hd, this.2.2⟩
  have hmeas : ∀ q ∈ rps, ∀ d : Mat F, d.WF → d.nrows = nb → d.ncols = pp → ∃ r, measurePatchSimilarity p q d = .ok r := by
    intro q hq d h1 h2 h3
    obtain ⟨g1, g2, g3⟩ := hr q hq
    exact measure_of_shape p g1 h1 ⟨by omega, by omega⟩ (by omega) (by omega)
  obtain ⟨rows, hrows⟩ := dpRows_total (p := p) (sw := sw) hdl (rps.zip ix) none (by
    intro x hx
    have hx2 := List.of_mem_zip hx
    obtain ⟨e1, e2⟩ := i32_window (p := p) hsw0 (hbig _ hx2.2)
    exact ⟨⟨_, _, e1, e2, hreach _ hx2.2⟩, fun d hdm => hmeas _ hx2.1 d (hdw d hdm).1 (hdw d hdm).2.1 (hdw d hdm).2.2⟩)
    (by intro _ _ h; cases h)
  rw [hrows]
  simp only [ok_bind]
  have hrl := dpRows_length _ _ _ hrows
  rw [List.length_zip] at hrl
  have hrr := dpRows_lengths hrows
  have hbb := hback rows (by rw [hdps]; exact hrows)
  have hn1 : n - 1 < ix.length := by omega
  rw [bind_of_ok (idx_of_lt hn1)]
  have hbn := hbig _ (List.getElem_mem hn1)
  generalize hli : ix[n - 1] = li at *
  have hus : i32ToUsize sw = sw.toNat := i32ToUsize_nonneg hsw0
  rw [bind_of_ok (i32_window (p := p) hsw0 hbn).1, hus, bind_of_ok (uadd_of_lt (lt_usizeMod (by omega))),
    bind_of_ok (uadd_of_lt (lt_usizeMod (by omega)))]
  have hn2 : n - 1 < rows.length := by omega
  rw [bind_of_ok (idx_of_lt hn2)]
  obtain ⟨hrl1, _⟩ := hrr (n - 1) _ (List.getElem?_eq_getElem hn2)
  obtain ⟨best, hb1, hb2⟩ := lastOffsetScan_total (row := rows[n - 1].1)
    (lastOffsets (max 0 ((li : Int) - sw)).toNat (li + sw.toNat + 1) deg.ncols) (Flt.minVal, 0) (by
      intro o ho
      unfold lastOffsets at ho
      obtain ⟨j, hj, rfl⟩ := List.mem_map.mp ho
      have := List.mem_range.mp hj
      omega)
  rw [bind_of_ok hb1]
  have hbo : best.2 < deg.ncols := by
    rcases hb2 with h | h
    · rw [h]; exact hN
    · unfold lastOffsets at h
      obtain ⟨j, hj, e⟩ := List.mem_map.mp h
      have := List.mem_range.mp hj
      omega
  have hitem : ∀ x ∈ rps.zip (ix.zip (rows.map Prod.snd)), ∃ (k : Nat) (r : List F × List Nat), (rps.zip (ix.zip (rows.map Prod.snd)))[k]? = some x ∧
      rows[k]? = some r ∧ x.2.2 = r.2 ∧ x.1 ∈ rps := by
    intro x hx
    obtain ⟨k, hk⟩ := List.getElem?_of_mem hx
    have hkl := (List.getElem?_eq_some_iff.mp hk).1
    rw [List.length_zip, List.length_zip, List.length_map] at hkl
    refine ⟨k, rows[k]'(by omega), hk, List.getElem?_eq_getElem _, ?_, (List.of_mem_zip hx).1⟩
    have := (List.getElem?_eq_some_iff.mp hk).2
    rw [← this, List.getElem_zip, List.getElem_zip, List.getElem_map]
  refine backtrack_total wd _ _ hbo ?_ ?_
  · intro x hx
    have hx := List.mem_of_mem_take (List.mem_reverse.mp hx)
    obtain ⟨k, r, _, h2, h3, h4⟩ := hitem x hx
    rw [h3]
    refine ⟨(hrr k r h2).2, fun o _ => ?_, ?_⟩
    · obtain ⟨g1, g2, g3⟩ := hr _ h4
      have := window_wf deg o x.1.ncols
      exact hmeas _ h4 _ this.1 (this.2.1.trans hd) (this.2.2.trans g3)
    · rw [(hr _ h4).2.2]; exact hum
  · intro x hx o b hb
    rw [List.dropLast_reverse] at hx
    have hx' := List.mem_reverse.mp hx
    obtain ⟨k, hk⟩ := List.getElem?_of_mem hx'
    rw [← List.drop_one, List.getElem?_drop, List.getElem?_take] at hk
    split at hk
    · have hkl := (List.getElem?_eq_some_iff.mp hk).1
      rw [List.length_zip, List.length_zip, List.length_map] at hkl
      have hkr : 1 + k < rows.length := by omega
      refine hbb (1 + k) _ (List.getElem?_eq_getElem hkr) (by omega) o b ?_
      rw [← hb]
      have := (List.getElem?_eq_some_iff.mp hk).2
      rw [← this, List.getElem_zip, List.getElem_zip, List.getElem_map]
    · cases hk

/-- C34: coarse matching of patches of `pp` columns does not panic (and returns no error) when some patch is usable - its start is
at least half a patch into the reference and at most half a patch past the end of the degraded spectrogram -, the starts
increase, and none is more than the search window past the end of the degraded spectrogram. -/
theorem C34_no_panic (p : Profile) {rps : List (Mat ℝ)} {ix : List Nat} {deg : Mat ℝ} {fd : ℝ} {radius : Int} {nb pp : Nat}
    (hl : rps.length = ix.length) (hr : ∀ q ∈ rps, q.WF ∧ q.nrows = nb ∧ q.ncols = pp) (hnb : 0 < nb) (hpp : 0 < pp)
    (wd : deg.WF) (hd : deg.nrows = nb) (hN : 0 < deg.ncols) (hN2 : deg.ncols + pp < 9223372036854775808)
    (hrad : 0 ≤ radius) (hbig : ∀ i ∈ ix, (i : Int) + radius * pp ≤ 2147483647) (hlen : ix.length ≤ 18446744073709551615)
    (hpp2 : pp ≤ 2147483647)
    (hsorted : ix.Pairwise (· < ·)) (husable : ∃ i ∈ ix, pp / 2 ≤ i ∧ i ≤ deg.ncols + pp / 2)
    (hreach : ∀ i ∈ ix, (i : Int) - radius * pp ≤ deg.ncols) :
    ∃ rs, findMostOptimalDegPatches p rps ix deg fd radius = .ok rs := by
  have hsw0 : 0 ≤ radius * pp := Int.mul_nonneg hrad (by omega)
  refine find_total p hl hr hnb hpp wd hd hN hN2 hrad hbig hpp2 hsorted husable hreach ?_
  intro rows hrows k r hk
  refine (dpRows_real hrows (by rw [List.length_zip]; omega) (fun x hx => (hr _ (List.of_mem_zip hx).1).1) ?_
    (fun x hx => ⟨_, (i32_window (p := p) hsw0 (hbig _ (List.of_mem_zip hx).2)).1⟩) k r hk).2.2.2
  intro d hdm
  obtain ⟨o, _, rfl⟩ := List.mem_map.mp hdm
  exact (window_wf deg o pp).1

/-! ## C33: optimality -/

theorem totalSim_concat (s : Nat → Nat → ℝ) (c : List (Option Nat)) (x : Option Nat) :
    totalSim s (c ++ [x]) = totalSim s c + x.elim 0 (s c.length) := by
  unfold totalSim
  rw [List.mapIdx_append]
  simp

/-- The value function of the tables bounds every admissible choice. -/
theorem value_upper {N n : Nat} {s V : Nat → Nat → ℝ} (h0 : ∀ o < N, V 0 o = s 0 o)
    (hs : ∀ k o, k + 1 < n → o < N → V k o ≤ V (k + 1) o ∧ ∀ j < o, s (k + 1) o + V k j ≤ V (k + 1) o) :
    ∀ (k : Nat) (c : List (Option Nat)), k < n → c.length = k + 1 → Admissible N c →
      ∃ o, (c.filterMap id).getLast? = some o ∧ o < N ∧ totalSim s c ≤ V k o
  | 0, c, _, hc, hA => by
    obtain ⟨o, ho⟩ := hA.first
    obtain ⟨x, rfl⟩ : ∃ x, c = [x] := by
      match c, hc with
      | [x], _ => exact ⟨x, rfl⟩
    simp only [List.getElem?_cons_zero, Option.some.injEq] at ho
    subst ho
    have hN := hA.inside o (by simp)
    refine ⟨o, rfl, hN, ?_⟩
    rw [h0 o hN]
    simp [totalSim]
  | k + 1, c, hk, hc, hA => by
    obtain ⟨c', x, rfl⟩ : ∃ c' x, c = c' ++ [x] :=
      ⟨c.dropLast, c.getLast (by intro h; rw [h] at hc; simp at hc), (List.dropLast_append_getLast _).symm⟩
    have hc' : c'.length = k + 1 := by simpa using hc
    have hA' : Admissible N c' := by
      refine ⟨?_, ?_, ?_⟩
      · have := hA.order
        unfold InOrder at this ⊢
        rw [List.filterMap_append, List.pairwise_append] at this
        exact this.1
      · intro o ho
        exact hA.inside o (by rw [List.filterMap_append]; exact List.mem_append_left _ ho)
      · obtain ⟨o, ho⟩ := hA.first
        rw [List.getElem?_append_left (by omega)] at ho
        exact ⟨o, ho⟩
    obtain ⟨o, h1, h2, h3⟩ := value_upper h0 hs k c' (by omega) hc' hA'
    rw [totalSim_concat, hc']
    cases x with
    | none =>
      refine ⟨o, ?_, h2, ?_⟩
      · rw [List.filterMap_append]; simpa using h1
      · have := (hs k o hk h2).1
        simp only [Option.elim_none]
        linarith
    | some j =>
      have hj : j < N := hA.inside j (by rw [List.filterMap_append]; simp)
      refine ⟨j, ?_, hj, ?_⟩
      · rw [List.filterMap_append]; simp
      · have hoj : o < j := by
          have := hA.order
          unfold InOrder at this
          rw [List.filterMap_append, List.pairwise_append] at this
          exact this.2.2 o (List.mem_of_getLast? h1) j (by simp)
        have := (hs k j hk hj).2 o hoj
        simp only [Option.elim_some]
        linarith

theorem lastOffsetScan_max {row : List ℝ} : ∀ (os : List Nat) (best r : ℝ × Nat), lastOffsetScan row os best = .ok r →
    best.1 ≤ r.1 ∧ (∀ o ∈ os, ∀ v, row[o]? = some v → v ≤ r.1) ∧ (r = best ∨ (r.2 ∈ os ∧ row[r.2]? = some r.1))
  | [], best, r, h => by cases h; exact ⟨le_refl _, by simp, .inl rfl⟩
  | o :: os, best, r, h => by
    unfold lastOffsetScan at h
    obtain ⟨v, hv, h⟩ := bind_ok h
    have hv := idx_ok hv
    obtain ⟨h1, h2, h3⟩ := lastOffsetScan_max os _ r h
    have h4 : best.1 ≤ r.1 ∧ v ≤ r.1 := by
      by_cases hc : best.1 < v
      · rw [if_pos (by simpa using hc)] at h1
        exact ⟨hc.le.trans h1, h1⟩
      · rw [if_neg (by simpa using hc)] at h1
        exact ⟨h1, (not_lt.mp hc).trans h1⟩
    refine ⟨h4.1, ?_, ?_⟩
    · intro o' ho' v' hv'
      rcases List.mem_cons.mp ho' with rfl | ho'
      · rw [hv] at hv'; cases hv'; exact h4.2
      · exact h2 o' ho' v' hv'
    · rcases h3 with h3 | h3
      · split at h3
        · right; rw [h3]; exact ⟨by simp, hv⟩
        · exact .inl h3
      · exact .inr ⟨by simp [h3.1], h3.2⟩

/-- The back trace attains the value of the table. -/
theorem backtrack_value {p : Profile} {deg : Mat ℝ} {fd pd : ℝ} (wd : deg.WF) (hnc : deg.ncols < usizeMod) {s V : Nat → Nat → ℝ}
    {items : List (Mat ℝ × Nat × List Nat)} {n : Nat} (hn : n ≤ items.length)
    (hbt : ∀ x ∈ items, x.2.2.length = deg.ncols)
    (hs : ∀ (k : Nat) x, items[k]? = some x → ∀ o < deg.ncols, ∀ q,
      measurePatchSimilarity p x.1 (deg.window o x.1.ncols) = .ok q → q.similarity = s k o)
    (h0 : ∀ x, items[0]? = some x → ∀ o < deg.ncols, V 0 o = s 0 o ∧ x.2.2[o]? = some (usizeMod - 1))
    (hstep : ∀ (k : Nat) x, k + 1 < n → items[k + 1]? = some x → ∀ o < deg.ncols, ∃ b, x.2.2[o]? = some b ∧ b ≤ o ∧
      (b = o → V (k + 1) o = V k o) ∧ (b < o → V (k + 1) o = s (k + 1) o + V k b)) :
    ∀ (k : Nat), k < n → ∀ (o : Nat) (rs : List (PatchSim ℝ)), o < deg.ncols →
      backtrack p deg fd pd ((items.take (k + 1)).reverse) o = .ok rs →
      ∃ c : List (Option Nat), c.length = k + 1 ∧ rs.length = k + 1 ∧ Admissible deg.ncols c ∧ (∀ j ∈ c.filterMap id, j ≤ o) ∧
        totalSim s c = V k o ∧ (rs.map PatchSim.similarity).sum = V k o ∧
        ∀ j < k + 1, ∃ r x y, rs[j]? = some r ∧ c[j]? = some x ∧ items[j]? = some y ∧ Reports p deg y.1 fd pd r x
  | k, hk, o, rs, ho, h => by
    have hkl : k < items.length := by omega
    have htake : (items.take (k + 1)).reverse = items[k] :: (items.take k).reverse := by
      rw [List.take_succ_eq_append_getElem hkl, List.reverse_append]; rfl
    rw [htake] at h
    have hgk := List.getElem?_eq_getElem hkl
    generalize items[k] = it at h hgk
    obtain ⟨m, i, bt⟩ := it
    unfold backtrack at h
    obtain ⟨⟨r, back⟩, h1, h⟩ := bind_ok h
    obtain ⟨rs', h2, h⟩ := bind_ok h
    cases h
    obtain ⟨b1, b2, _, _, b5⟩ := backtraceStep_reports h1 wd
    have hsim : ∀ o', Reports p deg m fd pd r (some o') → o' < deg.ncols → r.similarity = s k o' := by
      intro o' hr ho'
      have hr : MatchedAt p deg m fd pd o' r := hr
      obtain ⟨q, q1, q2, _⟩ := hr.scores
      rw [q2]
      exact hs k _ hgk o' ho' q q1
    cases k with
    | zero =>
      cases h2
      obtain ⟨e1, e2⟩ := h0 _ hgk o ho
      dsimp only at e2
      rw [b1] at e2
      cases e2
      rw [if_neg (by unfold usizeMod at *; omega)] at b5
      refine ⟨[some o], rfl, rfl, ⟨by simp [InOrder], by simpa using ho, ⟨o, rfl⟩⟩, by simp, by simp [totalSim, e1], ?_, ?_⟩
      · simp [hsim o b5 ho, e1]
      · intro j hj
        obtain rfl : j = 0 := by omega
        exact ⟨r, some o, _, rfl, rfl, hgk, b5⟩
    | succ k =>
      obtain ⟨b, f1, f2, f3, f4⟩ := hstep k _ hk hgk o ho
      dsimp only at f1
      rw [b1] at f1
      cases f1
      obtain ⟨c, c1, c2, c3, c4, c5, c6, c7⟩ := backtrack_value wd hnc hn hbt hs h0 hstep k (by omega) back rs' (by omega) h2
      refine ⟨c ++ [if o = back then none else some o], by simp [c1], by simp [c2], ⟨?_, ?_, ?_⟩, ?_, ?_, ?_, ?_⟩
      · unfold InOrder
        rw [List.filterMap_append, List.pairwise_append]
        refine ⟨c3.order, ?_, ?_⟩
        · split <;> simp
        · intro a ha b hb
          have := c4 a ha
          split at hb
          · simp at hb
          · simp at hb; omega
      · intro j hj
        rw [List.filterMap_append, List.mem_append] at hj
        rcases hj with hj | hj
        · exact c3.inside j hj
        · split at hj
          · simp at hj
          · simp at hj; omega
      · obtain ⟨o', ho'⟩ := c3.first
        exact ⟨o', by rw [List.getElem?_append_left (by omega)]; exact ho'⟩
      · intro j hj
        rw [List.filterMap_append, List.mem_append] at hj
        rcases hj with hj | hj
        · have := c4 j hj; omega
        · split at hj
          · simp at hj
          · simp at hj; omega
      · rw [totalSim_concat, c5, c1]
        by_cases hb : o = back
        · rw [if_pos hb, f3 hb.symm]
          simp [hb]
        · rw [if_neg hb, f4 (by omega)]
          simp only [Option.elim_some]; ring
      · rw [List.map_append, List.sum_append, c6]
        by_cases hb : o = back
        · rw [if_pos hb] at b5
          have b5 : Unmatched r := b5
          have := b5.similarity
          rw [real_lit0] at this
          simp only [List.map_cons, List.map_nil, List.sum_cons, List.sum_nil, this]
          rw [f3 hb.symm, hb]; ring
        · rw [if_neg hb] at b5
          simp only [List.map_cons, List.map_nil, List.sum_cons, List.sum_nil, hsim o b5 ho]
          rw [f4 (by omega)]; ring
      · intro j hj
        by_cases hjk : j < k + 1
        · obtain ⟨r', x', y', g1, g2, g3, g4⟩ := c7 j hjk
          refine ⟨r', x', y', ?_, ?_, g3, g4⟩
          · rw [List.getElem?_append_left (by omega)]; exact g1
          · rw [List.getElem?_append_left (by omega)]; exact g2
        · obtain rfl : j = k + 1 := by omega
          refine ⟨r, _, _, ?_, ?_, hgk, b5⟩
          · rw [List.getElem?_append_right (by omega)]; simp [c2]
          · rw [List.getElem?_append_right (by omega)]; simp [c1]

/-- C33: when the search window covers the whole degraded spectrogram for every patch, the reported matches are an admissible choice
(in order; a match for the first patch), their total similarity is the sum of the reported similarities, and no admissible
choice has a larger total. -/
theorem C33_optimal {p : Profile} {rps : List (Mat ℝ)} {ix : List Nat} {deg : Mat ℝ} {fd : ℝ} {radius : Int}
    {rs : List (PatchSim ℝ)} {nb pp : Nat} (h : findMostOptimalDegPatches p rps ix deg fd radius = .ok rs)
    (hl : rps.length = ix.length) (hr : ∀ q ∈ rps, q.WF ∧ q.nrows = nb ∧ q.ncols = pp)
    (wd : deg.WF) (hd : deg.nrows = nb) (hN2 : deg.ncols + pp < 9223372036854775808) (hpp2 : pp ≤ 2147483647)
    (hlen : ix.length ≤ 18446744073709551615) (hbig : ∀ i ∈ ix, (i : Int) + radius * pp ≤ 2147483647)
    (hcover : ∀ i ∈ ix, (i : Int) ≤ radius * pp ∧ (deg.ncols : Int) ≤ i + radius * pp + 1) :
    ∃ c : List (Option Nat), c.length = rs.length ∧ Admissible deg.ncols c ∧
      (∀ j < rs.length, ∃ r x m, rs[j]? = some r ∧ c[j]? = some x ∧ rps[j]? = some m ∧
        Reports p deg m fd (fd * pp) r x) ∧
      totalSim (simAt p rps deg) c = (rs.map PatchSim.similarity).sum ∧
      ∀ c', c'.length = rs.length → Admissible deg.ncols c' → totalSim (simAt p rps deg) c' ≤ totalSim (simAt p rps deg) c := by
  have hrs := find_calcMax h hl (fun q hq => (hr q hq).2.2)
  unfold findMostOptimalDegPatches at h
  obtain ⟨first, hf, h⟩ := bind_ok h
  obtain ⟨sw, hsw, h⟩ := bind_ok h
  obtain ⟨n, hn, h⟩ := bind_ok h
  have hfp : first.ncols = pp := (hr _ (List.mem_of_getElem? (idx_ok hf))).2.2
  rw [hfp] at h hn hsw
  have hpos := calcMaxLoop_le hrs
  have hix0 : 0 < ix.length := by omega
  have hi0 := hcover _ (List.getElem_mem hix0)
  have hi1 := hbig _ (List.getElem_mem hix0)
  rw [wrapI32_of_mem (z := (pp : Int)) (by omega) (by omega), i32_of_mem (by omega) (by omega)] at hsw
  cases hsw
  have hsw0 : 0 ≤ radius * (pp : Int) := by omega
  generalize hsw : radius * (pp : Int) = sw at *
  unfold calcMaxNumPatches at hn
  rw [if_neg (by omega), hrs] at hn
  cases hn
  rw [if_neg (by omega)] at h
  generalize hnn : rs.length = n at *
  have hum : deg.ncols + pp < usizeMod := lt_usizeMod hN2
  rw [bind_of_ok (mapE_of_forall (g := fun o => deg.window o pp) (fun o ho => by
    have := List.mem_range.mp ho
    exact buildDegradedPatch_window wd (by omega) (by omega)))] at h
  generalize hdps : (List.range deg.ncols).map (fun o => deg.window o pp) = dps at h
  have hdg : ∀ o < deg.ncols, dps[o]? = some (deg.window o pp) := by
    intro o ho
    rw [← hdps, List.getElem?_map, List.getElem?_range ho]; rfl
  have hdw : ∀ d ∈ dps, d.WF := by
    intro d hdm
    rw [← hdps] at hdm
    obtain ⟨o, _, rfl⟩ := List.mem_map.mp hdm
    exact (window_wf deg o pp).1
  obtain ⟨rows, hrows, h⟩ := bind_ok h
  obtain ⟨li, hli, h⟩ := bind_ok h
  have hli := idx_ok hli
  have hbn := hbig _ (List.mem_of_getElem? hli)
  have hcn := hcover _ (List.mem_of_getElem? hli)
  have hus : i32ToUsize sw = sw.toNat := i32ToUsize_nonneg hsw0
  rw [bind_of_ok (i32_window (p := p) hsw0 hbn).1, hus, bind_of_ok (uadd_of_lt (lt_usizeMod (by omega))),
    bind_of_ok (uadd_of_lt (lt_usizeMod (by omega)))] at h
  obtain ⟨lr, hlr, h⟩ := bind_ok h
  have hlr := idx_ok hlr
  obtain ⟨best, hbest, h⟩ := bind_ok h
  have hrl := dpRows_length _ _ _ hrows
  rw [List.length_zip] at hrl
  have hrr := dpRows_real hrows (by rw [List.length_zip]; omega) (fun x hx => (hr _ (List.of_mem_zip hx).1).1)
    hdw (fun x hx => ⟨_, (i32_window (p := p) hsw0 (hbig _ (List.of_mem_zip hx).2)).1⟩)
  -- the table as a function
  let V : Nat → Nat → ℝ := fun k o => ((rows.getD k ([], [])).1).getD o 0
  have hV : ∀ (k o : Nat) r v, rows[k]? = some r → r.1[o]? = some v → V k o = v := by
    intro k o r v h1 h2
    simp only [V, List.getD_eq_getElem?_getD, h1, Option.getD_some, h2]
  have hsimAt : ∀ (k o : Nat) m q, rps[k]? = some m → measurePatchSimilarity p m (deg.window o m.ncols) = .ok q →
      q.similarity = simAt p rps deg k o := by
    intro k o m q h1 h2
    unfold simAt
    rw [h1]
    simp only [h2]
  have hcell : ∀ k (hk : k < ix.length), ∃ r prev, rows[k]? = some r ∧ (k = 0 → prev = none) ∧
      (∀ j, k = j + 1 → ∃ m' i' r', (rps.zip ix)[j]? = some (m', i') ∧ rows[j]? = some r' ∧ prev = some (i', r'.1)) ∧
      ∀ o < deg.ncols, ∃ v b, r.1[o]? = some v ∧ r.2[o]? = some b ∧ |simAt p rps deg k o| ≤ 1 ∧
        dpCell p prev sw o (simAt p rps deg k o) = .ok (v, b) := by
    intro k hk
    have hkz : k < (rps.zip ix).length := by rw [List.length_zip]; omega
    obtain ⟨r, e1, prev, e2, e3, e4⟩ := dpRows_get _ _ _ hrows k rps[k] ix[k] (by
      rw [List.getElem?_eq_getElem hkz, List.getElem_zip])
    refine ⟨r, prev, e1, e3, e4, fun o ho => ?_⟩
    obtain ⟨_, _, lo, hi, g1, g2, g3⟩ := findOne_ok (row := r.1) (bt := r.2) e2
    have hb := hbig _ (List.getElem_mem hk)
    have hc := hcover _ (List.getElem_mem hk)
    obtain ⟨w1, w2⟩ := i32_window (p := p) hsw0 hb
    rw [w1] at g1; cases g1
    rw [w2] at g2; cases g2
    obtain ⟨v, b, k1, k2, k3, _⟩ := g3 o ho
    obtain ⟨d, q, q1, q2, q3⟩ := (k3 ⟨by omega, by omega⟩).out
    rw [hdg o ho] at q1
    cases q1
    have hm := hr rps[k] (List.getElem_mem (by omega))
    have hq2 := q2
    rw [show deg.window o pp = deg.window o rps[k].ncols by rw [hm.2.2]] at hq2
    rw [← hsimAt k o rps[k] q (List.getElem?_eq_getElem (by omega)) hq2]
    exact ⟨v, b, k1, k2, measure_abs_le hm.1 (window_wf deg o pp).1 q2, q3⟩
  have hzero : ∀ r, rows[0]? = some r → ∀ o < deg.ncols, V 0 o = simAt p rps deg 0 o ∧ r.2[o]? = some (usizeMod - 1) := by
    intro r0 hr0 o ho
    obtain ⟨r, prev, e1, e2, _, e4⟩ := hcell 0 hix0
    rw [hr0] at e1; cases e1
    obtain ⟨v, b, k1, k2, _, k4⟩ := e4 o ho
    rw [e2 rfl] at k4
    cases k4
    exact ⟨hV 0 o _ _ hr0 k1, k2⟩
  have hsucc : ∀ k, k + 1 < ix.length → ∀ r, rows[k + 1]? = some r → ∀ o < deg.ncols, ∃ b, r.2[o]? = some b ∧ b ≤ o ∧
      (b = o → V (k + 1) o = V k o) ∧ (b < o → V (k + 1) o = simAt p rps deg (k + 1) o + V k b) ∧ V k o ≤ V (k + 1) o ∧
      ∀ j < o, simAt p rps deg (k + 1) o + V k j ≤ V (k + 1) o := by
    intro k hk r1 hr1 o ho
    obtain ⟨r, prev, e1, _, e3, e4⟩ := hcell (k + 1) hk
    rw [hr1] at e1; cases e1
    obtain ⟨v, b, k1, k2, k3, k4⟩ := e4 o ho
    obtain ⟨m', i', r', f1, f2, f3⟩ := e3 k rfl
    rw [f3] at k4
    have hi' := (List.of_mem_zip (List.mem_of_getElem? f1)).2
    obtain ⟨bb, bl, _, _⟩ := hrr k r' f2
    have hB : (k : ℝ) + 1 ≤ 18446744073709551616 := by
      have : k + 1 ≤ 18446744073709551616 := by omega
      exact_mod_cast this
    obtain ⟨same, s1, s2, s3, _, s5, s6, s7⟩ := dpCell_real hB bb k3 (i32_window (p := p) hsw0 (hbig _ hi')).1 k4
    have hc := hcover _ hi'
    refine ⟨b, k2, s2, ?_, ?_, ?_, ?_⟩
    · intro he
      rw [hV _ _ _ _ hr1 k1, hV _ _ _ _ f2 s1, s5 he]
    · intro hlt
      obtain ⟨_, x, x1, x2⟩ := s6 hlt
      rw [hV _ _ _ _ hr1 k1, hV _ _ _ _ f2 x1, x2]
    · rw [hV _ _ _ _ hr1 k1, hV _ _ _ _ f2 s1]; exact s3
    · intro j hj
      have hjl : j < r'.1.length := by omega
      have := s7 j _ hj (by omega) (List.getElem?_eq_getElem hjl)
      rw [hV _ _ _ _ hr1 k1, hV _ _ _ _ f2 (List.getElem?_eq_getElem hjl)]
      exact this
  -- the chosen end
  have hboth : best.2 < deg.ncols ∧ ∀ o < deg.ncols, V (n - 1) o ≤ V (n - 1) best.2 := by
    obtain ⟨lb, ll, _, _⟩ := hrr (n - 1) lr hlr
    obtain ⟨b1, b2, b3⟩ := lastOffsetScan_max _ _ _ hbest
    have hmem : ∀ o < deg.ncols, o ∈ lastOffsets (max 0 ((li : Int) - sw)).toNat (li + sw.toNat + 1) deg.ncols := by
      intro o ho
      unfold lastOffsets
      exact List.mem_map.mpr ⟨o, List.mem_range.mpr (by omega), by omega⟩
    have hNpos : 0 < deg.ncols := by
      by_contra hc
      have hz : deg.ncols = 0 := by omega
      have hlast : (rps.zip (ix.zip (rows.map Prod.snd))).take n ≠ [] := by
        intro hcon
        have hcl : ((rps.zip (ix.zip (rows.map Prod.snd))).take n).length = 0 := by rw [hcon]; rfl
        rw [List.length_take, List.length_zip, List.length_zip, List.length_map, hrl, hl] at hcl
        omega
      have hrev : ((rps.zip (ix.zip (rows.map Prod.snd))).take n).reverse ≠ [] := by simpa using hlast
      obtain ⟨⟨m, i, bt⟩, l, hl'⟩ := List.exists_cons_of_ne_nil hrev
      rw [hl'] at h
      obtain ⟨⟨r, back⟩, h1, _⟩ := bind_ok h
      obtain ⟨q1, _⟩ := backtraceStep_reports h1 wd
      have hmm : (m, i, bt) ∈ rps.zip (ix.zip (rows.map Prod.snd)) :=
        List.mem_of_mem_take (List.mem_reverse.mp (by rw [hl']; simp))
      obtain ⟨r2, hr2, hr3⟩ := List.mem_map.mp (List.of_mem_zip (List.of_mem_zip hmm).2).2
      obtain ⟨j, hj⟩ := List.getElem?_of_mem hr2
      have hl0 := (hrr j r2 hj).2.2.1
      rw [hr3, hz] at hl0
      have hl1 := (List.getElem?_eq_some_iff.mp q1).1
      rw [hl0] at hl1
      exact absurd hl1 (Nat.not_lt_zero _)
    have hval : ∀ o < deg.ncols, ∃ v, lr.1[o]? = some v ∧ V (n - 1) o = v := by
      intro o ho
      have hol : o < lr.1.length := by omega
      exact ⟨_, List.getElem?_eq_getElem hol, hV _ _ _ _ hlr (List.getElem?_eq_getElem hol)⟩
    rcases b3 with b3 | ⟨b3, b4⟩
    · exfalso
      obtain ⟨v, hv, _⟩ := hval 0 hNpos
      have h1 := b2 0 (hmem 0 hNpos) v hv
      have h2 := lb v (List.mem_of_getElem? hv)
      rw [b3] at h1
      have hB : ((n - 1 : ℕ) : ℝ) + 1 ≤ 18446744073709551616 := by
        have : n - 1 + 1 ≤ 18446744073709551616 := by omega
        exact_mod_cast this
      have h3 := minVal_lt hB
      have := abs_le.mp h2
      dsimp only at h1
      linarith
    · have hbl : best.2 < deg.ncols := by
        rw [← ll]; exact (List.getElem?_eq_some_iff.mp b4).1
      refine ⟨hbl, fun o ho => ?_⟩
      obtain ⟨v, hv, e⟩ := hval o ho
      rw [e, hV _ _ _ _ hlr b4]
      exact b2 o (hmem o ho) v hv
  obtain ⟨hbo, hbmax⟩ := hboth
  have hitems : ∀ (k : Nat) x, (rps.zip (ix.zip (rows.map Prod.snd)))[k]? = some x → ∃ r, rows[k]? = some r ∧ x.2.2 = r.2 ∧
      rps[k]? = some x.1 ∧ k < ix.length := by
    intro k x hk
    have hkl := (List.getElem?_eq_some_iff.mp hk).1
    rw [List.length_zip, List.length_zip, List.length_map] at hkl
    have he := (List.getElem?_eq_some_iff.mp hk).2
    refine ⟨rows[k]'(by omega), List.getElem?_eq_getElem _, ?_, ?_, by omega⟩
    · rw [← he, List.getElem_zip, List.getElem_zip, List.getElem_map]
    · rw [List.getElem?_eq_getElem (by omega), ← he, List.getElem_zip]
  have hnl : n ≤ (rps.zip (ix.zip (rows.map Prod.snd))).length := by
    rw [List.length_zip, List.length_zip, List.length_map]; omega
  obtain ⟨c, c1, c2, c3, _, c5, c6, c7⟩ := backtrack_value (s := simAt p rps deg) (V := V) wd (by omega) hnl (by
      intro x hx
      obtain ⟨k, hk⟩ := List.getElem?_of_mem hx
      obtain ⟨r, r1, r2, _⟩ := hitems k x hk
      rw [r2]; exact (hrr k r r1).2.2.1) (by
      intro k x hx o _ q hq
      obtain ⟨r, r1, r2, r3, _⟩ := hitems k x hx
      exact hsimAt k o _ q r3 hq) (by
      intro x hx o ho
      obtain ⟨r, r1, r2, _⟩ := hitems 0 x hx
      rw [r2]; exact hzero r r1 o ho) (by
      intro k x _ hx o ho
      obtain ⟨r, r1, r2, _, r4⟩ := hitems (k + 1) x hx
      rw [r2]
      obtain ⟨b, q1, q2, q3, q4, _⟩ := hsucc k r4 r r1 o ho
      exact ⟨b, q1, q2, q3, q4⟩) (n - 1) (by omega) best.2 rs hbo (by
      rw [show n - 1 + 1 = n by omega]; exact h)
  refine ⟨c, by omega, c3, ?_, by rw [c5, c6], ?_⟩
  · intro j hj
    obtain ⟨r, x, y, g1, g2, g3, g4⟩ := c7 j (by omega)
    exact ⟨r, x, _, g1, g2, (hitems j y g3).choose_spec.2.2.1, g4⟩
  · intro c' hc' hA
    have hvu := value_upper (N := deg.ncols) (n := ix.length) (s := simAt p rps deg) (V := V)
      (fun o ho => by
        have : 0 < rows.length := by omega
        exact (hzero _ (List.getElem?_eq_getElem this) o ho).1)
      (fun k o hk ho => by
        have hk1 : k + 1 < rows.length := by omega
        obtain ⟨b, _, _, _, _, q5, q6⟩ := hsucc k hk _ (List.getElem?_eq_getElem hk1) o ho
        exact ⟨q5, q6⟩) (n - 1) c' (by omega) (by omega) hA
    obtain ⟨o, _, ho, hle⟩ := hvu
    rw [c5]
    exact hle.trans (hbmax o ho)

/-! ## Out of reach -/

section
variable {F : Type} [Flt F]

/-- C61, C34: a reference patch that starts more than the search window past the end of the degraded spectrogram makes coarse
matching panic, whatever the other patches are; the patch need not be one that would be used. -/
theorem C61_out_of_reach {p : Profile} {rps : List (Mat F)} {ix : List Nat} {deg : Mat F} {fd : F} {radius : Int} {pp : Nat}
    (hl : rps.length = ix.length) (hpp : ∀ q ∈ rps, q.ncols = pp) (hpp2 : pp ≤ 2147483647) (hrad : 0 ≤ radius)
    (hbig : ∀ i ∈ ix, (i : Int) + radius * pp ≤ 2147483647) {i : Nat} (hi : i ∈ ix)
    (hfar : (deg.ncols : Int) + radius * pp < i) : ∃ q, findMostOptimalDegPatches p rps ix deg fd radius = .error (.panic q) := by
  suffices hno : ∀ rs, findMostOptimalDegPatches p rps ix deg fd radius ≠ .ok rs by
    cases hx : findMostOptimalDegPatches p rps ix deg fd radius with
    | ok rs => exact absurd hx (hno rs)
    | error e =>
      obtain ⟨q, rfl⟩ := (errs_find p rps ix deg fd radius (fun h0 => by rw [h0] at hi; cases hi)).panics hx
      exact ⟨q, rfl⟩
  intro rs h
  have hsw0 : 0 ≤ radius * pp := Int.mul_nonneg hrad (by omega)
  have hb := hbig i hi
  unfold findMostOptimalDegPatches at h
  obtain ⟨first, hf, h⟩ := bind_ok h
  obtain ⟨sw, hsw, h⟩ := bind_ok h
  obtain ⟨n, hn, h⟩ := bind_ok h
  have hfp : first.ncols = pp := hpp _ (List.mem_of_getElem? (idx_ok hf))
  rw [hfp] at h hn hsw
  rw [wrapI32_of_mem (z := (pp : Int)) (by omega) (by omega), i32_of_mem (by omega) (by omega)] at hsw
  cases hsw
  split at h
  · cases h
  · obtain ⟨dps, hdps, h⟩ := bind_ok h
    obtain ⟨rows, hrows, h⟩ := bind_ok h
    obtain ⟨k, hk⟩ := List.getElem?_of_mem hi
    have hkl := (List.getElem?_eq_some_iff.mp hk).1
    have hkz : k < (rps.zip ix).length := by rw [List.length_zip]; omega
    obtain ⟨r, _, prev, e2, _⟩ := dpRows_get _ _ _ hrows k (rps[k]'(by omega)) i (by
      rw [List.getElem?_eq_getElem hkz, List.getElem_zip, (List.getElem?_eq_some_iff.mp hk).2])
    unfold findMostOptimalDegPatch at e2
    rw [bind_of_ok (i32_window (p := p) hsw0 hb).1, bind_of_ok (i32_window (p := p) hsw0 hb).2, slideLoop_eq, if_pos (by omega),
      if_neg (by omega), if_neg (by omega)] at e2
    obtain ⟨s', e3, _⟩ := bind_ok e2
    obtain ⟨d, e4, _⟩ := bind_ok e3
    have := idx_ok_lt e4
    rw [mapE_ok_length hdps, List.length_range] at this
    omega

variable [RustFft F]

omit [RustFft F] in
/-- The matching step of `C61_fullband`. -/
theorem fullband_far {p : Profile} {ref : AudioSignal F} {w : AnalysisWindow F} {refM degM : Mat F} {ix : List Nat} {patches : List (Mat F)}
    {fd : F} {sw : Nat} (w1 : refM.WF) (hix : (PatchCreator.image 20).indices p refM.ncols ref w = .ok ix)
    (created : createPatches 20 refM ix = .ok patches) (hfar : degM.ncols + sw * 20 + 50 ≤ refM.ncols)
    (hbig : refM.ncols + sw * 20 ≤ 2147483647) :
    ∃ q, findMostOptimalDegPatches p patches ix degM fd (wrapI32 sw) = .error (.panic q) := by
  generalize hdn : degM.ncols = dn at hfar
  generalize hrn : refM.ncols = rn at hfar hbig hix
  obtain ⟨k, hk1, hk2, hk3, _⟩ := C25_tiling p (m := refM) (by omega) ref w
  rw [hrn] at hk2 hk3
  rw [hk2] at hix
  have hixe := Except.ok.inj hix
  obtain ⟨c1, c2⟩ := createPatches_ok created w1
  have hsw : wrapI32 sw = sw := wrapI32_of_mem (by omega) (by omega)
  have hmem : ∀ i ∈ ix, ∃ j < k, i = 9 + 20 * j := by
    intro i hi
    rw [← hixe] at hi
    obtain ⟨j, hj, rfl⟩ := List.mem_map.mp hi
    exact ⟨j, List.mem_range.mp hj, rfl⟩
  refine C61_out_of_reach (pp := 20) (i := 9 + 20 * (k - 1)) c1 (fun q hq => (c2 q hq).2.2) (by norm_num)
    (by rw [hsw]; exact Int.natCast_nonneg _) ?_ ?_ ?_
  · intro i hi
    obtain ⟨j, hj, rfl⟩ := hmem i hi
    have := (hk3 j).mp hj
    rw [hsw]
    clear hsw
    push_cast
    omega
  · rw [← hixe]
    exact List.mem_map.mpr ⟨k - 1, List.mem_range.mpr (by omega), rfl⟩
  · rw [hdn]
    have := (hk3 k).not.mp (by omega)
    rw [hsw]
    clear hsw
    push_cast
    omega

/-- C61, fullband comparisons: a reference whose spectrogram is longer than that of the aligned degraded signal by more than the
search window and 50 columns never gets a score. -/
theorem C61_fullband {p : Profile} {m : Manager F} {ref deg al : AudioSignal F} {lag : F} (hm : m.patchCreator = .image 20)
    (hal : globallyAlign p ref deg = .ok (some (al, lag)))
    (hfar : numColumns al.data.length (AnalysisWindow.mk' (F := F) ref.sampleRate 0.25 0.08).size
        (AnalysisWindow.mk' (F := F) ref.sampleRate 0.25 0.08).hop + m.searchWindow * 20 + 50 ≤
      numColumns ref.data.length (AnalysisWindow.mk' (F := F) ref.sampleRate 0.25 0.08).size
        (AnalysisWindow.mk' (F := F) ref.sampleRate 0.25 0.08).hop)
    (hbig : numColumns ref.data.length (AnalysisWindow.mk' (F := F) ref.sampleRate 0.25 0.08).size
        (AnalysisWindow.mk' (F := F) ref.sampleRate 0.25 0.08).hop + m.searchWindow * 20 ≤ 2147483647)
    (x : Manager F × SimilarityResult F) : m.computeResults p ref deg ≠ .ok x := by
  intro h
  obtain ⟨al', lag', hal', ⟨st⟩⟩ := computeResults_stages (m' := x.1) (res := x.2) h
  rw [hal] at hal'
  cases hal'
  revert st
  rw [hm]
  intro st
  obtain ⟨w1, w2, _, _, h5, h6⟩ := st.shapes
  rw [← h5] at hfar hbig
  rw [← h6] at hfar
  obtain ⟨q, hq⟩ := fullband_far (p := p) (fd := Flt.ofNat (AnalysisWindow.mk' (F := F) ref.sampleRate 0.25 0.08).size *
    (AnalysisWindow.mk' (F := F) ref.sampleRate 0.25 0.08).overlap / Flt.ofNat ref.sampleRate) w1 st.ixs st.created hfar hbig
  have := st.found
  rw [hq] at this
  cases this

end

end Visqol
