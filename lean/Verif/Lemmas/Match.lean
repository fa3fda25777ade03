import Verif.Lemmas.Shape
import Verif.Spec.Match

/-! # The matching tables and the back trace -/

set_option linter.unusedSectionVars false

namespace Visqol
variable {F : Type} [Flt F]

theorem getD_range_window {r : List F} {a n : Nat} (h : a ≤ r.length) :
    (r.drop a).take (min (a + n) r.length - a) ++ List.replicate (a + n - r.length) 0.0 =
      (List.range n).map fun c => r.getD (a + c) 0.0 := by
  apply List.ext_getElem?
  intro i
  rw [List.getElem?_map]
  by_cases hi : i < n
  · rw [List.getElem?_range hi]
    simp only [Option.map_some, List.getD_eq_getElem?_getD]
    by_cases hl : a + i < r.length
    · rw [List.getElem?_append_left (by rw [List.length_take, List.length_drop]; omega), List.getElem?_take, if_pos (by omega),
        List.getElem?_drop, List.getElem?_eq_getElem hl]
      rfl
    · rw [List.getElem?_append_right (by rw [List.length_take, List.length_drop]; omega), List.getElem?_replicate,
        if_pos (by rw [List.length_take, List.length_drop]; omega), List.getElem?_eq_none (by omega : r.length ≤ a + i)]
      rfl
  · rw [List.getElem?_eq_none (by simp; omega), List.getElem?_eq_none (by simp; omega)]
    rfl

theorem buildDegradedPatch_window {m : Mat F} {a n : Nat} (wf : m.WF) (h1 : a ≤ m.ncols) (h2 : a + n < usizeMod) :
    buildDegradedPatch m a n = .ok (m.window a n) := by
  unfold buildDegradedPatch
  rw [if_pos h2]
  dsimp only
  unfold Mat.sliceCols
  rw [if_pos ⟨by omega, by omega⟩]
  simp only [ok_bind]
  have hrow : ∀ r ∈ m.rows, (r.drop a).take (min (a + n) m.ncols - a) ++ List.replicate (a + n - m.ncols) 0.0 =
      (List.range n).map fun c => r.getD (a + c) 0.0 := by
    intro r hr
    have := wf r hr
    rw [← this]
    exact getD_range_window (by omega)
  unfold Mat.window
  split
  · rename_i hgt
    unfold Mat.appendZeroCols
    congr 1
    simp only [List.map_map, Mat.mk.injEq]
    refine ⟨by omega, ?_⟩
    apply List.map_congr_left
    intro r hr
    exact hrow r hr
  · rename_i hgt
    congr 1
    simp only [Mat.mk.injEq]
    refine ⟨by omega, ?_⟩
    apply List.map_congr_left
    intro r hr
    rw [← hrow r hr, show a + n - m.ncols = 0 by omega]
    simp

theorem buildDegradedPatch_ok_window {m d : Mat F} {a n : Nat} (wf : m.WF) (h : buildDegradedPatch m a n = .ok d) :
    d = m.window a n := by
  have h1 := (buildDegradedPatch_ok h wf).2.2.2
  by_cases h2 : a + n < usizeMod
  · rw [buildDegradedPatch_window wf h1 h2] at h; cases h; rfl
  · unfold buildDegradedPatch at h
    rw [if_neg h2] at h; cases h

/-! ## The back scan -/

theorem backScan_eq (prev : List F) (lower b : Int) (best : F × Int) : backScan prev lower b best =
    if lower ≤ b then (do
      let v ← idx prev b.toNat
      backScan prev lower (b - 1) (if Flt.lt best.1 v then (v, b) else best))
    else .ok best := by
  rw [backScan]

theorem backScan_spec {prev : List F} {lower : Int} : ∀ (k : Nat) {b : Int} {best r : F × Int}, b = lower + k - 1 →
    backScan prev lower b best = .ok r →
    r = best ∨ (lower ≤ r.2 ∧ r.2 ≤ b ∧ prev[r.2.toNat]? = some r.1)
  | 0, b, best, r, hb, h => by
    rw [backScan_eq, if_neg (by omega)] at h
    cases h; exact .inl rfl
  | k + 1, b, best, r, hb, h => by
    rw [backScan_eq, if_pos (by omega)] at h
    obtain ⟨v, hv, h⟩ := bind_ok h
    rcases backScan_spec k (by omega) h with e | ⟨e1, e2, e3⟩
    · split at e
      · right; rw [e]; exact ⟨by omega, by omega, idx_ok hv⟩
      · exact .inl e
    · exact .inr ⟨e1, by omega, e3⟩

theorem backScan_ok {prev : List F} {lower b : Int} {best r : F × Int} (h : backScan prev lower b best = .ok r) :
    r = best ∨ (lower ≤ r.2 ∧ r.2 ≤ b ∧ prev[r.2.toNat]? = some r.1) := by
  by_cases hb : lower ≤ b
  · exact backScan_spec (b - lower + 1).toNat (by omega) h
  · rw [backScan_eq, if_neg hb] at h; cases h; exact .inl rfl

/-! ## One row of the tables -/

theorem slideLoop_eq {σ : Type} (hi : Int) (ncols : Nat) (body : σ → Nat → M σ) (o : Int) (s : σ) :
    slideLoop hi ncols body o s =
    if o ≤ hi then
      if o < 0 then slideLoop hi ncols body 0 s
      else if o = (ncols : Int) then .ok s
      else do
        let s' ← body s o.toNat
        slideLoop hi ncols body (o + 1) s'
    else .ok s := by
  rw [slideLoop]

theorem slideLoop_inv {σ : Type} {hi : Int} {nc : Nat} {body : σ → Nat → M σ} {P : Int → σ → Prop}
    (hneg : ∀ o s, o < 0 → P o s → P 0 s)
    (hstep : ∀ o s s', 0 ≤ o → o ≤ hi → o ≠ nc → P o s → body s o.toNat = .ok s' → P (o + 1) s') :
    ∀ (k : Nat) {o : Int} {s s' : σ}, (hi + 1 - o).toNat ≤ k → P o s → slideLoop hi nc body o s = .ok s' →
      ∃ e, P e s' ∧ (hi < e ∨ e = nc)
  | 0, o, s, s', hk, h0, h => by
    rw [slideLoop_eq, if_neg (by omega)] at h
    cases h; exact ⟨o, h0, .inl (by omega)⟩
  | k + 1, o, s, s', hk, h0, h => by
    rw [slideLoop_eq] at h
    split at h
    · rename_i hle
      split at h
      · rename_i hlt
        by_cases hhi : 0 ≤ hi
        · rw [slideLoop_eq, if_pos hhi, if_neg (by omega)] at h
          have hp := hneg o s hlt h0
          split at h
          · cases h; exact ⟨0, hp, .inr (by omega)⟩
          · rename_i hnc
            obtain ⟨s1, h1, h⟩ := bind_ok h
            exact slideLoop_inv hneg hstep k (by omega) (hstep 0 s s1 (by omega) hhi (by omega) hp h1) h
        · rw [slideLoop_eq, if_neg hhi] at h
          cases h; exact ⟨0, hneg o s hlt h0, .inl (by omega)⟩
      · split at h
        · rename_i he; cases h; exact ⟨o, h0, .inr he⟩
        · rename_i hge hne
          obtain ⟨s1, h1, h⟩ := bind_ok h
          exact slideLoop_inv hneg hstep k (by omega) (hstep o s s1 (by omega) hle hne h0 h1) h
    · cases h; exact ⟨o, h0, .inl (by omega)⟩

/-- A visited cell of the tables. -/
structure Cell (p : Profile) (refPatch : Mat F) (degPatches : List (Mat F)) (prev : Option (Nat × List F)) (sw : Int)
    (o : Nat) (v : F) (b : Nat) : Prop where
  out : ∃ d n, degPatches[o]? = some d ∧ measurePatchSimilarity p refPatch d = .ok n ∧ dpCell p prev sw o n.similarity = .ok (v, b)

theorem findOne_ok {p : Profile} {nc : Nat} {rp : Mat F} {dps : List (Mat F)} {prev : Option (Nat × List F)} {ri : Nat} {sw : Int}
    {row : List F} {bt : List Nat} (h : findMostOptimalDegPatch p nc rp dps prev ri sw = .ok (row, bt)) :
    row.length = nc ∧ bt.length = nc ∧ ∃ lo hi, i32 p (wrapI32 ri - sw) = .ok lo ∧ i32 p (wrapI32 ri + sw) = .ok hi ∧
      ∀ o < nc, ∃ v b, row[o]? = some v ∧ bt[o]? = some b ∧
        (lo ≤ o ∧ o ≤ hi → Cell p rp dps prev sw o v b) ∧ (¬ (lo ≤ o ∧ o ≤ hi) → v = 0.0 ∧ b = 0) := by
  unfold findMostOptimalDegPatch at h
  obtain ⟨lo, hlo, h⟩ := bind_ok h
  obtain ⟨hi, hhi, h⟩ := bind_ok h
  let P : Int → List F × List Nat → Prop := fun e st => lo ≤ e ∧ st.1.length = nc ∧ st.2.length = nc ∧
    ∀ o < nc, ∃ v b, st.1[o]? = some v ∧ st.2[o]? = some b ∧
      (lo ≤ o ∧ (o : Int) < e → (o : Int) ≤ hi ∧ Cell p rp dps prev sw o v b) ∧ (¬ (lo ≤ o ∧ (o : Int) < e) → v = 0.0 ∧ b = 0)
  have hneg : ∀ o s, o < 0 → P o s → P 0 s := by
    intro o s ho ⟨g0, g1, g2, g3⟩
    refine ⟨by omega, g1, g2, fun j hj => ?_⟩
    obtain ⟨v, b, e1, e2, e3, e4⟩ := g3 j hj
    exact ⟨v, b, e1, e2, fun hc => by omega, fun _ => e4 (by omega)⟩
  have hstep : ∀ (o : Int) (s s' : List F × List Nat), 0 ≤ o → o ≤ hi → o ≠ nc → P o s → (do
      let d ← idx dps o.toNat
      let sim ← measurePatchSimilarity p rp d
      let (v, b) ← dpCell p prev sw o.toNat sim.similarity
      let r ← setIdx s.1 o.toNat v
      let bt ← setIdx s.2 o.toNat b
      .ok (r, bt)) = .ok s' → P (o + 1) s' := by
    rintro o ⟨r, t⟩ ⟨r', t'⟩ h0 h1 h2 ⟨g0, g1, g2, g3⟩ hb
    obtain ⟨d, hd, hb⟩ := bind_ok hb
    obtain ⟨n, hn, hb⟩ := bind_ok hb
    obtain ⟨⟨v, b⟩, hv, hb⟩ := bind_ok hb
    obtain ⟨r1, hr, hb⟩ := bind_ok hb
    obtain ⟨t1, ht, hb⟩ := bind_ok hb
    cases hb
    dsimp only at g1 g2 g3 hr ht
    obtain ⟨k1, k2⟩ := setIdx_ok hr
    obtain ⟨k3, k4⟩ := setIdx_ok ht
    subst k2
    subst k4
    refine ⟨by omega, by simp [g1], by simp [g2], fun j hj => ?_⟩
    by_cases hjo : o.toNat = j
    · subst hjo
      refine ⟨v, b, by simp [k1], by simp [k3], fun _ => ⟨by omega, ⟨d, n, idx_ok hd, hn, hv⟩⟩, fun hc => by omega⟩
    · obtain ⟨v', b', e1, e2, e3, e4⟩ := g3 j hj
      refine ⟨v', b', ?_, ?_, fun hc => e3 (by omega), fun hc => e4 (by omega)⟩
      · rw [List.getElem?_set_ne hjo]; exact e1
      · rw [List.getElem?_set_ne hjo]; exact e2
  have hini : P lo (List.replicate nc 0.0, List.replicate nc 0) := by
    refine ⟨by omega, by simp, by simp, fun j hj => ⟨0.0, 0, ?_, ?_, fun hc => by omega, fun _ => ⟨rfl, rfl⟩⟩⟩
    · simp [List.getElem?_replicate, hj]
    · simp [List.getElem?_replicate, hj]
  obtain ⟨e, ⟨_, h1, h2, h3⟩, he⟩ := slideLoop_inv hneg hstep (hi + 1 - lo).toNat (Nat.le_refl _) hini h
  refine ⟨h1, h2, lo, hi, hlo, hhi, fun o ho => ?_⟩
  obtain ⟨v, b, e1, e2, e3, e4⟩ := h3 o ho
  refine ⟨v, b, e1, e2, fun hc => (e3 ⟨hc.1, by omega⟩).2, fun hc => ?_⟩
  by_cases hc' : lo ≤ (o : Int) ∧ (o : Int) < e
  · exact absurd ⟨hc'.1, (e3 hc').1⟩ hc
  · exact e4 hc'

/-- All rows: row `k` is computed from row `k - 1`. -/
theorem dpRows_get {p : Profile} {nc : Nat} {dps : List (Mat F)} {sw : Int} (l : List (Mat F × Nat)) :
    ∀ (prev : Option (Nat × List F)) (rows : List (List F × List Nat)),
      dpRows p nc dps sw prev l = .ok rows → ∀ k m i, l[k]? = some (m, i) → ∃ r, rows[k]? = some r ∧
        ∃ prev', findMostOptimalDegPatch p nc m dps prev' i sw = .ok r ∧ (k = 0 → prev' = prev) ∧
          ∀ j, k = j + 1 → ∃ m' i' r', l[j]? = some (m', i') ∧ rows[j]? = some r' ∧ prev' = some (i', r'.1) := by
  induction l with
  | nil => intro prev rows h k m i hk; simp at hk
  | cons x l ih =>
    intro prev rows h k m i hk
    obtain ⟨m0, i0⟩ := x
    unfold dpRows at h
    obtain ⟨r, h1, h⟩ := bind_ok h
    obtain ⟨rs, h2, h⟩ := bind_ok h
    cases h
    cases k with
    | zero =>
      simp only [List.getElem?_cons_zero, Option.some.injEq, Prod.mk.injEq] at hk
      obtain ⟨rfl, rfl⟩ := hk
      exact ⟨r, rfl, prev, h1, fun _ => rfl, fun j hj => by omega⟩
    | succ k =>
      simp only [List.getElem?_cons_succ] at hk
      obtain ⟨r', e1, prev', e2, e3, e4⟩ := ih _ _ h2 k m i hk
      refine ⟨r', by simpa using e1, prev', e2, fun hc => by omega, fun j hj => ?_⟩
      obtain rfl : k = j := by omega
      cases k with
      | zero => exact ⟨m0, i0, r, rfl, rfl, e3 rfl⟩
      | succ k =>
        obtain ⟨m', i', r'', f1, f2, f3⟩ := e4 k rfl
        exact ⟨m', i', r'', by simpa using f1, by simpa using f2, f3⟩

/-! ## The back trace -/

theorem i32ToUsize_neg_one : i32ToUsize (-1) = usizeMod - 1 := rfl

theorem i32ToUsize_nonneg {z : Int} (h : 0 ≤ z) : i32ToUsize z = z.toNat := by
  unfold i32ToUsize; rw [if_pos h]

theorem dpCell_back {p : Profile} {prev : Option (Nat × List F)} {sw : Int} {o : Nat} {sim v : F} {b : Nat}
    (h : dpCell p prev sw o sim = .ok (v, b)) : b ≤ o ∨ b = usizeMod - 1 := by
  unfold dpCell at h
  split at h
  · cases h; exact .inr rfl
  · obtain ⟨lo, _, h⟩ := bind_ok h
    dsimp only at h
    obtain ⟨⟨hs, past⟩, hb, h⟩ := bind_ok h
    obtain ⟨same, _, h⟩ := bind_ok h
    dsimp only at h
    split at h
    · cases h; exact .inl (Nat.le_refl _)
    · cases h
      rcases backScan_ok hb with e | ⟨e1, e2, _⟩
      · cases e; exact .inr rfl
      · left
        dsimp only at e1 e2
        rw [i32ToUsize_nonneg (by omega)]; omega

theorem findOne_back {p : Profile} {nc : Nat} {rp : Mat F} {dps : List (Mat F)} {prev : Option (Nat × List F)} {ri : Nat}
    {sw : Int} {r : List F × List Nat} (h : findMostOptimalDegPatch p nc rp dps prev ri sw = .ok r) (hnc : nc < usizeMod) :
    r.2.length = nc ∧ ∀ o b, r.2[o]? = some b → b ≤ o ∨ nc ≤ b := by
  obtain ⟨row, bt⟩ := r
  obtain ⟨_, h2, lo, hi, _, _, h5⟩ := findOne_ok h
  refine ⟨h2, fun o b hb => ?_⟩
  have ho : o < nc := by
    rw [← h2]; exact (List.getElem?_eq_some_iff.mp hb).1
  obtain ⟨v, b', _, e2, e3, e4⟩ := h5 o ho
  have : b' = b := by
    have : some b' = some b := by rw [← e2]; exact hb
    simpa using this
  subst this
  by_cases hc : lo ≤ (o : Int) ∧ (o : Int) ≤ hi
  · obtain ⟨d, n, _, _, g⟩ := (e3 hc).out
    rcases dpCell_back g with g | g
    · exact .inl g
    · right; omega
  · left; rw [(e4 hc).2]; omega

/-- One step of the back trace reports either a match at the current offset, or no match. -/
theorem backtraceStep_reports {p : Profile} {deg : Mat F} {fd pd : F} {rp : Mat F} {ri : Nat} {bt : List Nat} {o : Nat}
    {r : PatchSim F} {back : Nat} (h : backtraceStep p deg fd pd rp ri bt o = .ok (r, back)) (wd : deg.WF) :
    bt[o]? = some back ∧ o ≤ deg.ncols ∧ r.refStart = Flt.ofNat ri * fd ∧ r.refEnd = Flt.ofNat ri * fd + pd ∧
      Reports p deg rp fd pd r (if o = back then none else some o) := by
  unfold backtraceStep at h
  replace h := bind_ok h
  obtain ⟨d, h1, h⟩ := h
  replace h := bind_ok h
  obtain ⟨n, h2, h⟩ := h
  replace h := bind_ok h
  obtain ⟨b, h3, h⟩ := h
  have hd := buildDegradedPatch_ok_window wd h1
  have ho := (buildDegradedPatch_ok h1 wd).2.2.2
  have hb := idx_ok h3
  subst hd
  dsimp only at h
  by_cases hc : o = b
  · simp only [if_pos hc] at h
    cases h
    refine ⟨hb, ho, rfl, rfl, ?_⟩
    rw [if_pos hc]
    exact ⟨rfl, rfl, rfl, fun x hx => List.eq_of_mem_replicate hx⟩
  · simp only [if_neg hc] at h
    cases h
    refine ⟨hb, ho, rfl, rfl, ?_⟩
    rw [if_neg hc]
    exact ⟨rfl, rfl, n, h2, rfl, rfl, rfl, rfl⟩

/-- The choices made by the back trace. -/
theorem backtrack_choices {p : Profile} {deg : Mat F} {fd pd : F} (wd : deg.WF) :
    ∀ (l : List (Mat F × Nat × List Nat)) (o : Nat) (rs : List (PatchSim F)),
      (∀ x ∈ l, x.2.2.length = deg.ncols ∧ ∀ o b, x.2.2[o]? = some b → b ≤ o ∨ deg.ncols ≤ b) →
      backtrack p deg fd pd l o = .ok rs →
      rs.length = l.length ∧ ∃ c : List (Option Nat), c.length = l.length ∧ InOrder c ∧ (∀ j ∈ c.filterMap id, j ≤ o ∧ j < deg.ncols) ∧
        (∀ (k : Nat) m i bt, l.reverse[k]? = some (m, i, bt) → ∃ r x, rs[k]? = some r ∧ c[k]? = some x ∧ Reports p deg m fd pd r x ∧
          r.refStart = Flt.ofNat i * fd ∧ r.refEnd = Flt.ofNat i * fd + pd)
  | [], _, rs, _, h => by
    cases h
    exact ⟨rfl, [], rfl, by simp [InOrder], by simp, by simp⟩
  | (m, i, bt) :: l, o, rs, hl, h => by
    obtain ⟨⟨r, back⟩, h1, h⟩ := bind_ok h
    obtain ⟨rs', h2, h⟩ := bind_ok h
    cases h
    obtain ⟨b1, b2, b3, b4, b5⟩ := backtraceStep_reports h1 wd
    obtain ⟨hbl, hbb⟩ := hl (m, i, bt) (by simp)
    have ho : o < deg.ncols := by
      have := (List.getElem?_eq_some_iff.mp b1).1
      dsimp only at hbl; omega
    obtain ⟨e1, c, c1, c2, c3, c4⟩ := backtrack_choices wd l back rs' (fun x hx => hl x (by simp [hx])) h2
    have hback : l = [] ∨ back ≤ o := by
      cases l with
      | nil => exact .inl rfl
      | cons x l =>
        right
        obtain ⟨m', i', bt'⟩ := x
        obtain ⟨⟨r', back'⟩, h3, _⟩ := bind_ok h2
        obtain ⟨q1, _⟩ := backtraceStep_reports h3 wd
        have hlen := (hl (m', i', bt') (by simp)).1
        have := (List.getElem?_eq_some_iff.mp q1).1
        rcases hbb o back b1 with g | g
        · exact g
        · dsimp only at hlen; omega
    have hless : ∀ j ∈ c.filterMap id, j ≤ back ∧ back ≤ o := by
      intro j hj
      rcases hback with g | g
      · subst g
        have : c = [] := by simpa using c1
        subst this; simp at hj
      · exact ⟨(c3 j hj).1, g⟩
    refine ⟨by simp [e1], c ++ [if o = back then none else some o], by simp [c1], ?_, ?_, ?_⟩
    · unfold InOrder
      rw [List.filterMap_append, List.pairwise_append]
      refine ⟨c2, ?_, ?_⟩
      · split <;> simp
      · intro a ha b hb
        have := hless a ha
        split at hb
        · simp at hb
        · simp at hb; omega
    · intro j hj
      rw [List.filterMap_append, List.mem_append] at hj
      rcases hj with hj | hj
      · have := hless j hj; have := (c3 j hj).2; omega
      · split at hj
        · simp at hj
        · simp at hj; omega
    · intro k m' i' bt' hk
      rw [List.reverse_cons] at hk
      by_cases hkl : k < l.length
      · rw [List.getElem?_append_left (by simpa using hkl)] at hk
        obtain ⟨r', x, f1, f2, f3⟩ := c4 k m' i' bt' hk
        refine ⟨r', x, ?_, ?_, f3⟩
        · rw [List.getElem?_append_left (by omega)]; exact f1
        · rw [List.getElem?_append_left (by omega)]; exact f2
      · rw [List.getElem?_append_right (by simpa using hkl), List.length_reverse] at hk
        have hk0 : k = l.length := by
          have := (List.getElem?_eq_some_iff.mp hk).1
          simp at this; omega
        subst hk0
        simp only [Nat.sub_self, List.getElem?_cons_zero, Option.some.injEq, Prod.mk.injEq] at hk
        obtain ⟨rfl, rfl, rfl⟩ := hk
        refine ⟨r, _, ?_, ?_, b5, b3, b4⟩
        · rw [List.getElem?_append_right (by omega)]; simp [e1]
        · rw [List.getElem?_append_right (by omega)]; simp [c1]

end Visqol
