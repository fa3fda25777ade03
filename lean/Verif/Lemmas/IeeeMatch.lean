import Verif.Lemmas.IeeeSilent
import Verif.Props.Optimal

/-! # Coarse matching in floating point when every similarity is 1 -/

set_option linter.unusedSectionVars false

namespace Visqol
open Ieee
variable {F : Type} [Flt F]

/-- The back trace along cells that all point to an earlier column reports a match for every patch. -/
theorem backtrack_matched {p : Profile} {deg : Mat F} {fd pd : F} (wd : deg.WF) (hnc : deg.ncols < usizeMod) {V : Nat → Nat → Prop}
    {items : List (Mat F × Nat × List Nat)} {n : Nat} (hn : n ≤ items.length)
    (h0 : ∀ x, items[0]? = some x → ∀ o, V 0 o → o < deg.ncols ∧ x.2.2[o]? = some (usizeMod - 1))
    (hstep : ∀ (k : Nat) x, k + 1 < n → items[k + 1]? = some x → ∀ o, V (k + 1) o →
      o < deg.ncols ∧ ∃ b, x.2.2[o]? = some b ∧ b < o ∧ V k b) :
    ∀ (k : Nat), k < n → ∀ (o : Nat) (rs : List (PatchSim F)), V k o →
      backtrack p deg fd pd ((items.take (k + 1)).reverse) o = .ok rs →
      rs.length = k + 1 ∧ ∀ j < k + 1, ∃ r x y, rs[j]? = some r ∧ items[j]? = some y ∧ x < deg.ncols ∧
        MatchedAt p deg y.1 fd pd x r ∧ r.refStart = Flt.ofNat y.2.1 * fd ∧ r.refEnd = Flt.ofNat y.2.1 * fd + pd
  | k, hk, o, rs, ho, h => by
    have hkl : k < items.length := by omega
    have htake : (items.take (k + 1)).reverse = items[k] :: (items.take k).reverse := by
      rw [List.take_succ_eq_append_getElem hkl, List.reverse_append]; rfl
    rw [htake] at h
    have hgk := List.getElem?_eq_getElem hkl
    generalize items[k] = it at h hgk
    obtain ⟨m, i, bt⟩ := it
    unfold backtrack at h
    obtain ⟨⟨r, back⟩, h1, h⟩ := bind_ok h
    obtain ⟨rs', h2, h⟩ := bind_ok h
    cases h
    obtain ⟨b1, b2, b3, b4, b5⟩ := backtraceStep_reports h1 wd
    cases k with
    | zero =>
      cases h2
      obtain ⟨e1, e2⟩ := h0 _ hgk o ho
      dsimp only at e2
      rw [b1] at e2
      cases e2
      rw [if_neg (by unfold usizeMod at *; omega)] at b5
      refine ⟨rfl, fun j hj => ?_⟩
      obtain rfl : j = 0 := by omega
      exact ⟨r, o, _, rfl, hgk, e1, b5, b3, b4⟩
    | succ k =>
      obtain ⟨e1, b, f1, f2, f3⟩ := hstep k _ hk hgk o ho
      dsimp only at f1
      rw [b1] at f1
      cases f1
      obtain ⟨c1, c2⟩ := backtrack_matched wd hnc hn h0 hstep k (by omega) back rs' f3 h2
      rw [if_neg (by omega)] at b5
      refine ⟨by simp [c1], fun j hj => ?_⟩
      by_cases hjk : j < k + 1
      · obtain ⟨r', x', y', g1, g2⟩ := c2 j hjk
        refine ⟨r', x', y', ?_, g2⟩
        rw [List.getElem?_append_left (by omega)]; exact g1
      · obtain rfl : j = k + 1 := by omega
        refine ⟨r, o, _, ?_, hgk, e1, b5, b3, b4⟩
        rw [List.getElem?_append_right (by omega)]; simp [c1]

variable [Ieee F]

/-- Every number is a natural number up to `K`. -/
def NatUpTo (K : ℕ) (l : List F) : Prop := ∀ a ∈ l, ∃ n : ℕ, n ≤ K ∧ val a = .fin n

theorem backScan_val {prev : List F} {lower : Int} (hp : ∀ a ∈ prev, ∃ x, Is a x) : ∀ (k : Nat) {b : Int} {best r : F × Int} {y : ℝ},
    b = lower + k - 1 → Is best.1 y → backScan prev lower b best = .ok r →
    ∃ z, Is r.1 z ∧ y ≤ z ∧ ∀ j : Int, lower ≤ j → j ≤ b → ∀ v x, prev[j.toNat]? = some v → Is v x → x ≤ z
  | 0, b, best, r, y, hb, hy, h => by
    rw [backScan_eq, if_neg (by omega)] at h
    cases h; exact ⟨y, hy, le_rfl, fun j h1 h2 => by omega⟩
  | k + 1, b, best, r, y, hb, hy, h => by
    rw [backScan_eq, if_pos (by omega)] at h
    obtain ⟨v, hv, h⟩ := bind_ok h
    have hv := idx_ok hv
    obtain ⟨x, hx⟩ := hp v (List.mem_of_getElem? hv)
    rw [Is.lt hy hx] at h
    by_cases hc : y < x
    · rw [decide_eq_true hc, if_pos rfl] at h
      obtain ⟨z, h1, h2, h3⟩ := backScan_val hp k (by omega) (best := (v, b)) hx h
      refine ⟨z, h1, hc.le.trans h2, fun j j1 j2 w u hw hu => ?_⟩
      by_cases hj : j = b
      · subst hj; rw [hv] at hw; cases hw
        rw [Is, hx] at hu; cases hu; exact h2
      · exact h3 j j1 (by omega) w u hw hu
    · rw [decide_eq_false hc, if_neg (by simp)] at h
      obtain ⟨z, h1, h2, h3⟩ := backScan_val hp k (by omega) hy h
      refine ⟨z, h1, h2, fun j j1 j2 w u hw hu => ?_⟩
      by_cases hj : j = b
      · subst hj; rw [hv] at hw; cases hw
        rw [Is, hx] at hu; cases hu; exact (not_lt.mp hc).trans h2
      · exact h3 j j1 (by omega) w u hw hu

theorem lastOffsetScan_val {row : List F} (hp : ∀ a ∈ row, ∃ x, Is a x) : ∀ (os : List Nat) (best r : F × Nat) (y : ℝ),
    Is best.1 y → lastOffsetScan row os best = .ok r →
    ∃ z, Is r.1 z ∧ y ≤ z ∧ (∀ o ∈ os, ∀ v x, row[o]? = some v → Is v x → x ≤ z) ∧ (r = best ∨ (r.2 ∈ os ∧ row[r.2]? = some r.1))
  | [], best, r, y, hy, h => by cases h; exact ⟨y, hy, le_refl _, by simp, .inl rfl⟩
  | o :: os, best, r, y, hy, h => by
    unfold lastOffsetScan at h
    obtain ⟨v, hv, h⟩ := bind_ok h
    have hv := idx_ok hv
    obtain ⟨x, hx⟩ := hp v (List.mem_of_getElem? hv)
    rw [Is.lt hy hx] at h
    by_cases hc : y < x
    · rw [decide_eq_true hc, if_pos rfl] at h
      obtain ⟨z, h1, h2, h3, h4⟩ := lastOffsetScan_val hp os (v, o) r x hx h
      refine ⟨z, h1, hc.le.trans h2, fun j hj w u hw hu => ?_, ?_⟩
      · rcases List.mem_cons.mp hj with rfl | hj
        · rw [hv] at hw; cases hw
          rw [Is, hx] at hu; cases hu; exact h2
        · exact h3 j hj w u hw hu
      · rcases h4 with h4 | h4
        · right; rw [h4]; exact ⟨by simp, hv⟩
        · exact .inr ⟨by simp [h4.1], h4.2⟩
    · rw [decide_eq_false hc, if_neg (by simp)] at h
      obtain ⟨z, h1, h2, h3, h4⟩ := lastOffsetScan_val hp os best r y hy h
      refine ⟨z, h1, h2, fun j hj w u hw hu => ?_, ?_⟩
      · rcases List.mem_cons.mp hj with rfl | hj
        · rw [hv] at hw; cases hw
          rw [Is, hx] at hu; cases hu; exact (not_lt.mp hc).trans h2
        · exact h3 j hj w u hw hu
      · rcases h4 with h4 | h4
        · exact .inl h4
        · exact .inr ⟨by simp [h4.1], h4.2⟩

theorem minVal_le : ∃ M : ℝ, Is (Flt.minVal : F) M ∧ M ≤ -2 := by
  refine ⟨_, val_minVal, ?_⟩
  have h1 : (2 : ℝ) ^ 972 ≤ 2 ^ 1024 := pow_le_pow_right₀ (by norm_num) (by norm_num)
  have h2 : (2 : ℝ) ^ 1 ≤ 2 ^ 971 := pow_le_pow_right₀ (by norm_num) (by norm_num)
  have h3 : (2 : ℝ) ^ 972 = 2 ^ 971 * 2 := pow_succ _ _
  rw [h3] at h1
  clear h3
  generalize (2 : ℝ) ^ 1024 = A at *
  generalize (2 : ℝ) ^ 971 = B at *
  linarith

/-- One cell of the table. -/
theorem dpCell_nat {p : Profile} {pi : Nat} {row : List F} {sw lo : Int} {o : Nat} {s v : F} {b K : ℕ} (hK : K + 1 ≤ 2 ^ 53)
    (hrow : NatUpTo K row) (hs : val s = .fin 1) (hlo : i32 p (wrapI32 pi - sw) = .ok lo)
    (h : dpCell p (some (pi, row)) sw o s = .ok (v, b)) :
    ∃ n : ℕ, n ≤ K + 1 ∧ val v = .fin n ∧ (n = K + 1 → b < o ∧ ∃ x, row[b]? = some x ∧ val x = .fin K) ∧
      ((∃ j : Nat, j < o ∧ lo ≤ j ∧ ∃ x, row[j]? = some x ∧ val x = .fin K) → n = K + 1) := by
  obtain ⟨M, hM, hM2⟩ := minVal_le (F := F)
  unfold dpCell at h
  dsimp only at h
  rw [hlo] at h
  simp only [ok_bind] at h
  obtain ⟨⟨hi, past⟩, hb, h⟩ := bind_ok h
  replace h := bind_ok h
  obtain ⟨same, hsame, h⟩ := h
  dsimp only at h
  have hsame := idx_ok hsame
  obtain ⟨m, hm, hmv⟩ := hrow same (List.mem_of_getElem? hsame)
  have hscan : ∃ z, Is hi z ∧ ∀ j : Int, max lo 0 ≤ j → j ≤ (o : Int) - 1 → ∀ v x, row[j.toNat]? = some v → Is v x → x ≤ z := by
    by_cases hle : max lo 0 ≤ (o : Int)
    · obtain ⟨z, h1, _, h3⟩ := backScan_val (fun a ha => ⟨_, (hrow a ha).choose_spec.2⟩) ((o : Int) - max lo 0).toNat (by omega)
        (best := (Flt.minVal, -1)) hM hb
      exact ⟨z, h1, h3⟩
    · rw [backScan_eq, if_neg (by omega)] at hb
      cases hb
      exact ⟨_, hM, fun j h1 h2 => by omega⟩
  obtain ⟨z, hz, hmax⟩ := hscan
  rcases backScan_ok hb with e | ⟨e1, e2, e3⟩
  · -- nothing scanned
    cases e
    rw [Is, hM] at hz
    cases hz
    have hneg : Is (-(1.0 : F)) (-1) := Is.neg val_1
    have hsum : val (s + Flt.minVal) = rnd F (1 + M) := Is.add hs hM
    have hlt : Flt.lt (s + Flt.minVal) same = true := by
      rcases rnd_le (F := F) _ _ (1 + M) hneg (by linarith) with h1 | ⟨w, h1, h2⟩
      · rw [lt_val, hsum, h1, hmv]; rfl
      · rw [Is.lt (show Is (s + Flt.minVal) w from hsum.trans h1) hmv, decide_eq_true]
        have : (0 : ℝ) ≤ m := Nat.cast_nonneg m
        linarith
    rw [hlt, if_pos rfl] at h
    cases h
    refine ⟨m, by omega, hmv, fun hc => by omega, ?_⟩
    rintro ⟨j, j1, j2, x, hx, hxv⟩
    have := hmax j (by omega) (by omega) x K (by simpa using hx) hxv
    have h0 : (0 : ℝ) ≤ K := Nat.cast_nonneg K
    linarith
  · dsimp only at e1 e2 e3
    obtain ⟨n, hn, hnv⟩ := hrow hi (List.mem_of_getElem? e3)
    rw [Is, hnv] at hz
    cases hz
    have hsum : val (s + hi) = .fin ((n + 1 : ℕ) : ℝ) := by
      rw [Is.add hs hnv, show (1 : ℝ) + (n : ℝ) = ((n + 1 : ℕ) : ℝ) by push_cast; ring, rnd_nat F (by omega)]
    rw [Is.lt hsum hmv] at h
    have hchain : (∃ j : Nat, j < o ∧ lo ≤ j ∧ ∃ x, row[j]? = some x ∧ val x = .fin K) → n = K := by
      rintro ⟨j, j1, j2, x, hx, hxv⟩
      have := hmax j (by omega) (by omega) x K (by simpa using hx) hxv
      have : K ≤ n := by exact_mod_cast this
      omega
    by_cases hc : ((n + 1 : ℕ) : ℝ) < m
    · rw [decide_eq_true hc, if_pos rfl] at h
      cases h
      refine ⟨m, by omega, hmv, fun hc => by omega, fun hj => ?_⟩
      have := hchain hj
      have : n + 1 < m := by exact_mod_cast hc
      omega
    · rw [decide_eq_false hc, if_neg (by simp)] at h
      cases h
      refine ⟨n + 1, by omega, hsum, fun hk => ?_, fun hj => by rw [hchain hj]⟩
      rw [i32ToUsize_nonneg (by omega)]
      refine ⟨by omega, hi, e3, ?_⟩
      rw [hnv, show n = K by omega]

/-- Where the perfect path of a tiling by patches of 20 columns runs: 20 columns before each patch, and at 0 for the first. -/
def early (k : ℕ) : ℕ := 20 * k - 11

/-- If every similarity is 1, then every reported patch of a tiling by 20 columns is matched. -/
theorem ones_find {p : Profile} {rps : List (Mat F)} {ix : List Nat} {deg : Mat F} {fd : F} {radius : Int}
    {rs : List (PatchSim F)} (h : findMostOptimalDegPatches p rps ix deg fd radius = .ok rs)
    (hl : rps.length = ix.length) (hr : ∀ q ∈ rps, q.WF ∧ q.ncols = 20) (wd : deg.WF) (hN2 : deg.ncols + 20 < 9223372036854775808)
    (hlen : ix.length ≤ 2 ^ 53) (hrad : 1 ≤ radius) (hbig : ∀ i ∈ ix, (i : Int) + radius * 20 ≤ 2147483647)
    (hix : ∀ k i, ix[k]? = some i → i = 9 + 20 * k)
    (hone : ∀ m ∈ rps, ∀ o q, measurePatchSimilarity p m (deg.window o 20) = .ok q → val q.similarity = .fin 1) :
    ∀ (k : Nat) r, rs[k]? = some r → ∃ m i o, rps[k]? = some m ∧ ix[k]? = some i ∧ o < deg.ncols ∧
      MatchedAt p deg m fd (fd * Flt.ofNat 20) o r ∧ r.refStart = Flt.ofNat i * fd ∧
      r.refEnd = Flt.ofNat i * fd + fd * Flt.ofNat 20 := by
  obtain ⟨M, hM, hM2⟩ := minVal_le (F := F)
  have hrs := find_calcMax h hl (fun q hq => (hr q hq).2)
  unfold findMostOptimalDegPatches at h
  obtain ⟨first, hf, h⟩ := bind_ok h
  obtain ⟨sw, hsw, h⟩ := bind_ok h
  obtain ⟨n, hn, h⟩ := bind_ok h
  have hfp : first.ncols = 20 := (hr _ (List.mem_of_getElem? (idx_ok hf))).2
  rw [hfp] at h hn hsw
  have hum : deg.ncols + 20 < usizeMod := lt_usizeMod hN2
  obtain ⟨hpos, hnl, ⟨li', hli', hli1, hli2⟩, _⟩ := calcMaxLoop_spec hum hrs le_rfl
  have hix0 : 0 < ix.length := by omega
  have hi1 := hbig _ (List.getElem_mem hix0)
  rw [wrapI32_of_mem (z := ((20 : ℕ) : Int)) (by omega) (by omega), i32_of_mem (by omega) (by omega)] at hsw
  cases hsw
  rw [show ((20 : ℕ) : Int) = 20 from rfl] at h
  have hsw0 : 20 ≤ radius * 20 := by omega
  generalize hsw : radius * (20 : Int) = sw at *
  unfold calcMaxNumPatches at hn
  rw [if_neg (by omega), hrs] at hn
  cases hn
  rw [if_neg (by omega)] at h
  generalize hnn : rs.length = n at *
  have hli'' := hix _ _ hli'
  rw [bind_of_ok (mapE_of_forall (g := fun o => deg.window o 20) (fun o ho => by
    have := List.mem_range.mp ho
    exact buildDegradedPatch_window wd (by omega) (by omega)))] at h
  generalize hdps : (List.range deg.ncols).map (fun o => deg.window o 20) = dps at h
  have hdg : ∀ o < deg.ncols, dps[o]? = some (deg.window o 20) := by
    intro o ho
    rw [← hdps, List.getElem?_map, List.getElem?_range ho]; rfl
  obtain ⟨rows, hrows, h⟩ := bind_ok h
  obtain ⟨li, hli, h⟩ := bind_ok h
  have hli := idx_ok hli
  rw [hli'] at hli
  cases hli
  have hbn := hbig _ (List.mem_of_getElem? hli')
  have hus : i32ToUsize sw = sw.toNat := i32ToUsize_nonneg (by omega)
  rw [bind_of_ok (i32_window (p := p) (by omega) hbn).1, hus, bind_of_ok (uadd_of_lt (lt_usizeMod (by omega))),
    bind_of_ok (uadd_of_lt (lt_usizeMod (by omega)))] at h
  obtain ⟨lr, hlr, h⟩ := bind_ok h
  have hlr := idx_ok hlr
  obtain ⟨best, hbest, h⟩ := bind_ok h
  have hrl := dpRows_length _ _ _ hrows
  rw [List.length_zip] at hrl
  -- one row
  have hcell : ∀ k (hk : k < ix.length), ∃ r prev, rows[k]? = some r ∧ r.1.length = deg.ncols ∧ (k = 0 → prev = none) ∧
      (∀ j, k = j + 1 → ∃ r', rows[j]? = some r' ∧ prev = some (9 + 20 * j, r'.1)) ∧
      ∀ o < deg.ncols, ∃ v b, r.1[o]? = some v ∧ r.2[o]? = some b ∧
        ((9 + 20 * k : ℕ) - sw ≤ o ∧ (o : Int) ≤ (9 + 20 * k : ℕ) + sw → ∃ s, val s = .fin 1 ∧ dpCell p prev sw o s = .ok (v, b)) ∧
        (¬ ((9 + 20 * k : ℕ) - sw ≤ o ∧ (o : Int) ≤ (9 + 20 * k : ℕ) + sw) → v = 0.0) := by
    intro k hk
    have hkz : k < (rps.zip ix).length := by rw [List.length_zip]; omega
    obtain ⟨r, e1, prev, e2, e3, e4⟩ := dpRows_get _ _ _ hrows k rps[k] ix[k] (by
      rw [List.getElem?_eq_getElem hkz, List.getElem_zip])
    obtain ⟨g0, _, lo, hi, g1, g2, g3⟩ := findOne_ok (row := r.1) (bt := r.2) e2
    have hb := hbig _ (List.getElem_mem hk)
    have hixk := hix k _ (List.getElem?_eq_getElem hk)
    obtain ⟨w1, w2⟩ := i32_window (p := p) (by omega) hb
    rw [w1] at g1; cases g1
    rw [w2] at g2; cases g2
    rw [hixk] at g3
    refine ⟨r, prev, e1, g0, e3, ?_, fun o ho => ?_⟩
    · intro j hj
      obtain ⟨m', i', r', f1, f2, f3⟩ := e4 j hj
      have hjz : j < (rps.zip ix).length := by rw [List.length_zip]; omega
      have : i' = 9 + 20 * j := by
        rw [List.getElem?_zip_eq_some] at f1
        exact hix _ _ f1.2
      subst this
      exact ⟨r', f2, f3⟩
    · obtain ⟨v, b, k1, k2, k3, k4⟩ := g3 o ho
      refine ⟨v, b, k1, k2, fun hc => ?_, fun hc => (k4 hc).1⟩
      obtain ⟨d, q, q1, q2, q3⟩ := (k3 hc).out
      rw [hdg o ho] at q1
      cases q1
      exact ⟨_, hone _ (List.getElem_mem _) _ _ q2, q3⟩
  have hlow : ∀ j : ℕ, j < ix.length → i32 p (wrapI32 ((9 + 20 * j : ℕ) : Int) - sw) = .ok (((9 + 20 * j : ℕ) : Int) - sw) := by
    intro j hj
    have hb := hbig _ (List.getElem_mem hj)
    rw [hix j _ (List.getElem?_eq_getElem hj)] at hb
    exact (i32_window (p := p) (by omega) hb).1
  -- all values are natural numbers
  have hnat : ∀ k, k < ix.length → ∀ r, rows[k]? = some r → NatUpTo (k + 1) r.1 := by
    intro k
    induction k with
    | zero =>
      intro hk r hrk a ha
      obtain ⟨r', prev, e1, e0, e2, _, e4⟩ := hcell 0 hk
      rw [hrk] at e1; cases e1
      obtain ⟨o, ho, rfl⟩ := List.getElem_of_mem ha
      obtain ⟨v, b, k1, k2, k3, k4⟩ := e4 o (by omega)
      rw [List.getElem?_eq_getElem ho] at k1
      rw [Option.some.inj k1]
      by_cases hc : ((9 + 20 * 0 : ℕ) - sw ≤ o ∧ (o : Int) ≤ (9 + 20 * 0 : ℕ) + sw)
      · obtain ⟨s, s1, s2⟩ := k3 hc
        rw [e2 rfl] at s2
        cases s2
        exact ⟨1, le_rfl, by rw [s1, Nat.cast_one]⟩
      · rw [k4 hc]; exact ⟨0, by omega, by rw [val_0, Nat.cast_zero]⟩
    | succ k ih =>
      intro hk r hrk a ha
      obtain ⟨r', prev, e1, e0, _, e3, e4⟩ := hcell (k + 1) hk
      rw [hrk] at e1; cases e1
      obtain ⟨o, ho, rfl⟩ := List.getElem_of_mem ha
      obtain ⟨v, b, k1, k2, k3, k4⟩ := e4 o (by omega)
      rw [List.getElem?_eq_getElem ho] at k1
      rw [Option.some.inj k1]
      by_cases hc : ((9 + 20 * (k + 1) : ℕ) - sw ≤ o ∧ (o : Int) ≤ (9 + 20 * (k + 1) : ℕ) + sw)
      · obtain ⟨s, s1, s2⟩ := k3 hc
        obtain ⟨rp, f2, f3⟩ := e3 k rfl
        rw [f3] at s2
        obtain ⟨m, hm, hmv, _⟩ := dpCell_nat (by omega) (ih (by omega) rp f2) s1 (hlow k (by omega)) s2
        exact ⟨m, hm, hmv⟩
      · rw [k4 hc]; exact ⟨0, by omega, by rw [val_0, Nat.cast_zero]⟩
  -- the perfect path
  have hpath : ∀ k, k < ix.length → early k < deg.ncols → ∀ r, rows[k]? = some r →
      ∃ v, r.1[early k]? = some v ∧ val v = .fin ((k + 1 : ℕ) : ℝ) := by
    intro k
    induction k with
    | zero =>
      intro hk hin r hrk
      obtain ⟨r', prev, e1, e0, e2, _, e4⟩ := hcell 0 hk
      rw [hrk] at e1; cases e1
      obtain ⟨v, b, k1, k2, k3, _⟩ := e4 (early 0) hin
      obtain ⟨s, s1, s2⟩ := k3 (by unfold early; omega)
      rw [e2 rfl] at s2
      cases s2
      exact ⟨_, k1, by rw [s1, Nat.cast_one]⟩
    | succ k ih =>
      intro hk hin r hrk
      have hin' : early k < deg.ncols := by unfold early at *; omega
      obtain ⟨r', prev, e1, e0, _, e3, e4⟩ := hcell (k + 1) hk
      rw [hrk] at e1; cases e1
      obtain ⟨v, b, k1, k2, k3, _⟩ := e4 (early (k + 1)) hin
      obtain ⟨s, s1, s2⟩ := k3 (by unfold early; omega)
      obtain ⟨rp, f2, f3⟩ := e3 k rfl
      rw [f3] at s2
      obtain ⟨m, _, hmv, _, hm⟩ := dpCell_nat (by omega) (hnat k (by omega) rp f2) s1 (hlow k (by omega)) s2
      obtain ⟨x, x1, x2⟩ := ih (by omega) hin' rp f2
      have := hm ⟨early k, by unfold early; omega, by unfold early; omega, x, x1, x2⟩
      exact ⟨v, k1, by rw [hmv, this]⟩
  -- cells of the largest value
  let V : Nat → Nat → Prop := fun k o => ∃ r v, rows[k]? = some r ∧ r.1[o]? = some v ∧ val v = .fin ((k + 1 : ℕ) : ℝ)
  have hVlt : ∀ k o, k < ix.length → V k o → o < deg.ncols := by
    rintro k o hk ⟨r, v, h1, h2, _⟩
    obtain ⟨r', prev, e1, e0, _⟩ := hcell k hk
    rw [h1] at e1; cases e1
    rw [← e0]
    exact (List.getElem?_eq_some_iff.mp h2).1
  have hcase : ∀ k, k < ix.length → ∀ o, V k o → ∃ r prev b s v, rows[k]? = some r ∧ (k = 0 → prev = none) ∧
      (∀ j, k = j + 1 → ∃ r', rows[j]? = some r' ∧ prev = some (9 + 20 * j, r'.1)) ∧
      r.2[o]? = some b ∧ val s = .fin 1 ∧ val v = .fin ((k + 1 : ℕ) : ℝ) ∧ dpCell p prev sw o s = .ok (v, b) := by
    intro k hk o hV
    have ho := hVlt k o hk hV
    obtain ⟨r, v, h1, h2, hv⟩ := hV
    obtain ⟨r', prev, e1, _, e2, e3, e4⟩ := hcell k hk
    rw [h1] at e1; cases e1
    obtain ⟨v', b, k1, k2, k3, k4⟩ := e4 o ho
    rw [h2] at k1; cases k1
    by_cases hc : ((9 + 20 * k : ℕ) - sw ≤ o ∧ (o : Int) ≤ (9 + 20 * k : ℕ) + sw)
    · obtain ⟨s, s1, s2⟩ := k3 hc
      exact ⟨r, prev, b, s, v, h1, e2, e3, k2, s1, hv, s2⟩
    · exfalso
      rw [k4 hc, val_0] at hv
      have h0 : (0 : ℝ) = ((k + 1 : ℕ) : ℝ) := Val.fin.inj hv
      have : 0 = k + 1 := by exact_mod_cast h0
      omega
  have hback : ∀ k, k + 1 < ix.length → ∀ o, V (k + 1) o → ∃ r b, rows[k + 1]? = some r ∧ r.2[o]? = some b ∧ b < o ∧ V k b := by
    intro k hk o hV
    obtain ⟨r, prev, b, s, v, h1, _, e3, h3, h4, h5, h6⟩ := hcase (k + 1) hk o hV
    obtain ⟨rp, f2, f3⟩ := e3 k rfl
    rw [f3] at h6
    obtain ⟨m, _, hmv, hm, _⟩ := dpCell_nat (by omega) (hnat k (by omega) rp f2) h4 (hlow k (by omega)) h6
    rw [h5] at hmv
    have hmk : m = k + 1 + 1 := by
      have := Val.fin.inj hmv
      exact_mod_cast this.symm
    obtain ⟨g1, x, g2, g3⟩ := hm hmk
    exact ⟨r, b, h1, h3, g1, rp, x, f2, g2, g3⟩
  -- the chosen end
  have hbv : V (n - 1) best.2 := by
    have hnl' : n - 1 < ix.length := by omega
    have hnr := hnat (n - 1) hnl' lr hlr
    obtain ⟨z, b1, _, b2, b3⟩ := lastOffsetScan_val (fun a ha => ⟨_, (hnr a ha).choose_spec.2⟩) _ (Flt.minVal, 0) _ M hM hbest
    have hein : early (n - 1) < deg.ncols := by unfold early; omega
    obtain ⟨v, v1, v2⟩ := hpath (n - 1) hnl' hein lr hlr
    have hm : early (n - 1) ∈ lastOffsets (max 0 ((li' : Int) - sw)).toNat (li' + sw.toNat + 1) deg.ncols := by
      unfold lastOffsets
      refine List.mem_map.mpr ⟨early (n - 1) - (max 0 ((li' : Int) - sw)).toNat, List.mem_range.mpr ?_, ?_⟩ <;>
        unfold early at * <;> omega
    have hge := b2 _ hm v _ v1 v2
    rcases b3 with b3 | ⟨_, b4⟩
    · exfalso
      rw [b3] at b1
      rw [Is, hM] at b1
      cases b1
      have : (0 : ℝ) ≤ ((n - 1 + 1 : ℕ) : ℝ) := Nat.cast_nonneg _
      linarith
    · obtain ⟨m, m1, m2⟩ := hnr _ (List.mem_of_getElem? b4)
      rw [Is, m2] at b1
      cases b1
      have : n - 1 + 1 ≤ m := by exact_mod_cast hge
      exact ⟨lr, best.1, hlr, b4, by rw [m2, show m = n - 1 + 1 by omega]⟩
  have hitems : ∀ (k : Nat) x, (rps.zip (ix.zip (rows.map Prod.snd)))[k]? = some x → ∃ r, rows[k]? = some r ∧ x.2.2 = r.2 ∧
      rps[k]? = some x.1 ∧ ix[k]? = some x.2.1 ∧ k < ix.length := by
    intro k x hk
    have hkl := (List.getElem?_eq_some_iff.mp hk).1
    rw [List.length_zip, List.length_zip, List.length_map] at hkl
    have he := (List.getElem?_eq_some_iff.mp hk).2
    refine ⟨rows[k]'(by omega), List.getElem?_eq_getElem _, ?_, ?_, ?_, by omega⟩
    · rw [← he, List.getElem_zip, List.getElem_zip, List.getElem_map]
    · rw [List.getElem?_eq_getElem (by omega), ← he, List.getElem_zip]
    · rw [List.getElem?_eq_getElem (by omega), ← he, List.getElem_zip, List.getElem_zip]
  have hnl : n ≤ (rps.zip (ix.zip (rows.map Prod.snd))).length := by
    rw [List.length_zip, List.length_zip, List.length_map]; omega
  obtain ⟨_, c2⟩ := backtrack_matched (V := V) wd (by omega) hnl (by
      intro x hx o ho
      obtain ⟨r, r1, r2, _, _, r4⟩ := hitems 0 x hx
      obtain ⟨r', prev, b, s, v, h1, e2, _, h3, _, _, h6⟩ := hcase 0 r4 o ho
      rw [r1] at h1; cases h1
      rw [e2 rfl] at h6
      unfold dpCell at h6
      simp only [Except.ok.injEq, Prod.mk.injEq] at h6
      rw [r2, h3, ← h6.2]
      exact ⟨hVlt 0 o r4 ho, rfl⟩) (by
      intro k x _ hx o ho
      obtain ⟨r, r1, r2, _, _, r4⟩ := hitems (k + 1) x hx
      obtain ⟨r', b, h1, h2, h3, h4⟩ := hback k r4 o ho
      rw [r1] at h1; cases h1
      exact ⟨hVlt _ _ r4 ho, b, by rw [r2]; exact h2, h3, h4⟩) (n - 1) (by omega) best.2 rs hbv (by
      rw [show n - 1 + 1 = n by omega]; exact h)
  intro k r hk
  have hkn : k < n := by rw [← hnn]; exact (List.getElem?_eq_some_iff.mp hk).1
  obtain ⟨r', x, y, g1, g2, g3, g4, g5, g6⟩ := c2 k (by omega)
  rw [hk] at g1; cases g1
  obtain ⟨_, _, _, q1, q2, _⟩ := hitems k y g2
  exact ⟨_, _, x, q1, q2, g3, g4, g5, g6⟩

end Visqol
