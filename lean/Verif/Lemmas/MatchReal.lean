import Verif.Lemmas.Match
import Verif.Props.Nsim

/-! # The matching tables: totality, and their meaning in exact arithmetic -/

set_option linter.unusedSectionVars false

namespace Visqol

section any
variable {F : Type} [Flt F]

theorem backScan_total {prev : List F} {lower : Int} (h0 : 0 ≤ lower) : ∀ (k : Nat) {b : Int} {best : F × Int}, b = lower + k - 1 →
    b < prev.length → ∃ r, backScan prev lower b best = .ok r
  | 0, b, best, hb, _ => by rw [backScan_eq, if_neg (by omega)]; exact ⟨_, rfl⟩
  | k + 1, b, best, hb, hl => by
    rw [backScan_eq, if_pos (by omega), idx_of_lt (by omega : b.toNat < prev.length)]
    simp only [ok_bind]
    exact backScan_total h0 k (by omega) (by omega)

theorem dpCell_total {p : Profile} {pi : Nat} {row : List F} {sw lo : Int} {o : Nat} {sim : F} (ho : o < row.length)
    (hlo : i32 p (wrapI32 pi - sw) = .ok lo) : ∃ x, dpCell p (some (pi, row)) sw o sim = .ok x := by
  unfold dpCell
  dsimp only
  rw [hlo]
  simp only [ok_bind]
  obtain ⟨⟨hs, past⟩, hr⟩ : ∃ r, backScan row (max lo 0) ((o : Int) - 1) (Flt.minVal, -1) = .ok r := by
    by_cases hc : max lo 0 ≤ (o : Int) - 1
    · exact backScan_total (by omega) ((o : Int) - max lo 0).toNat (by omega) (by omega)
    · rw [backScan_eq, if_neg hc]; exact ⟨_, rfl⟩
  rw [hr, idx_of_lt ho]
  simp only [ok_bind]
  split <;> exact ⟨_, rfl⟩

theorem slideLoop_total {σ : Type} {hi : Int} {nc : Nat} {body : σ → Nat → M σ} {P : σ → Prop}
    (hstep : ∀ o s, P s → o < nc → ∃ s', body s o = .ok s' ∧ P s') :
    ∀ (k : Nat) {o : Int} {s : σ}, (hi + 1 - o).toNat ≤ k → o ≤ nc → P s → ∃ s', slideLoop hi nc body o s = .ok s'
  | 0, o, s, hk, _, _ => by rw [slideLoop_eq, if_neg (by omega)]; exact ⟨_, rfl⟩
  | k + 1, o, s, hk, ho, hP => by
    rw [slideLoop_eq]
    split
    · split
      · by_cases hhi : 0 ≤ hi
        · rw [slideLoop_eq, if_pos hhi, if_neg (by omega)]
          split
          · exact ⟨_, rfl⟩
          · obtain ⟨s1, h1, h2⟩ := hstep 0 s hP (by omega)
            rw [show (0 : Int).toNat = 0 from rfl, h1]
            simp only [ok_bind]
            exact slideLoop_total hstep k (by omega) (by omega) h2
        · rw [slideLoop_eq, if_neg hhi]; exact ⟨_, rfl⟩
      · split
        · exact ⟨_, rfl⟩
        · obtain ⟨s1, h1, h2⟩ := hstep o.toNat s hP (by omega)
          rw [h1]
          simp only [ok_bind]
          exact slideLoop_total hstep k (by omega) (by omega) h2
    · exact ⟨_, rfl⟩

/-- One row can be computed when its first offset is not past the end. -/
theorem findOne_total {p : Profile} {nc : Nat} {rp : Mat F} {dps : List (Mat F)} {prev : Option (Nat × List F)} {ri : Nat} {sw : Int}
    {lo hi : Int} (hlo : i32 p (wrapI32 ri - sw) = .ok lo) (hhi : i32 p (wrapI32 ri + sw) = .ok hi) (hreach : lo ≤ nc)
    (hdl : dps.length = nc) (hm : ∀ d ∈ dps, ∃ r, measurePatchSimilarity p rp d = .ok r)
    (hprev : ∀ pi row, prev = some (pi, row) → row.length = nc ∧ ∃ l, i32 p (wrapI32 pi - sw) = .ok l) :
    ∃ r, findMostOptimalDegPatch p nc rp dps prev ri sw = .ok r := by
  unfold findMostOptimalDegPatch
  rw [hlo, hhi]
  simp only [ok_bind]
  refine slideLoop_total (P := fun st => st.1.length = nc ∧ st.2.length = nc) ?_ _ (Nat.le_refl _) hreach (by simp)
  rintro o ⟨r, t⟩ ⟨h1, h2⟩ ho
  dsimp only at h1 h2
  have hd : o < dps.length := by omega
  obtain ⟨n, hn⟩ := hm dps[o] (List.getElem_mem hd)
  obtain ⟨⟨v, b⟩, hv⟩ : ∃ x, dpCell p prev sw o n.similarity = .ok x := by
    cases prev with
    | none => exact ⟨_, rfl⟩
    | some q =>
      obtain ⟨pi, row⟩ := q
      obtain ⟨e1, l, e2⟩ := hprev pi row rfl
      exact dpCell_total (by omega) e2
  rw [idx_of_lt hd]
  simp only [ok_bind, hn, hv]
  rw [setIdx_of_lt (by omega), setIdx_of_lt (by omega)]
  exact ⟨_, rfl, by simp [h1], by simp [h2]⟩

theorem dpRows_total {p : Profile} {nc : Nat} {dps : List (Mat F)} {sw : Int} (hdl : dps.length = nc) (l : List (Mat F × Nat)) :
    ∀ (prev : Option (Nat × List F)),
      (∀ x ∈ l, (∃ lo hi, i32 p (wrapI32 x.2 - sw) = .ok lo ∧ i32 p (wrapI32 x.2 + sw) = .ok hi ∧ lo ≤ nc) ∧
        ∀ d ∈ dps, ∃ r, measurePatchSimilarity p x.1 d = .ok r) →
      (∀ pi row, prev = some (pi, row) → row.length = nc ∧ ∃ l, i32 p (wrapI32 pi - sw) = .ok l) →
      ∃ rows, dpRows p nc dps sw prev l = .ok rows := by
  induction l with
  | nil => intro prev _ _; exact ⟨[], rfl⟩
  | cons x l ih =>
    intro prev hl hprev
    obtain ⟨m, i⟩ := x
    obtain ⟨⟨lo, hi, h1, h2, h3⟩, h4⟩ := hl (m, i) (by simp)
    obtain ⟨r, hr⟩ := findOne_total h1 h2 h3 hdl h4 hprev
    have hlen := (findOne_ok (row := r.1) (bt := r.2) hr).1
    obtain ⟨rs, hrs⟩ := ih (some (i, r.1)) (fun x hx => hl x (by simp [hx])) (by
      intro pi row he
      simp only [Option.some.injEq, Prod.mk.injEq] at he
      obtain ⟨rfl, rfl⟩ := he
      exact ⟨hlen, lo, h1⟩)
    unfold dpRows
    rw [hr]
    simp only [ok_bind, hrs]
    exact ⟨_, rfl⟩

theorem lastOffsetScan_total {row : List F} : ∀ (os : List Nat) (best : F × Nat), (∀ o ∈ os, o < row.length) →
    ∃ r, lastOffsetScan row os best = .ok r ∧ (r = best ∨ r.2 ∈ os)
  | [], best, _ => ⟨best, rfl, .inl rfl⟩
  | o :: os, best, h => by
    unfold lastOffsetScan
    rw [idx_of_lt (h o (by simp))]
    simp only [ok_bind]
    generalize row[o]'(h o (by simp)) = v
    obtain ⟨r, h1, h2⟩ := lastOffsetScan_total os (if Flt.lt best.1 v then (v, o) else best) (fun x hx => h x (by simp [hx]))
    refine ⟨r, h1, ?_⟩
    rcases h2 with h2 | h2
    · split at h2
      · right; rw [h2]; simp
      · exact .inl h2
    · right; simp [h2]

theorem backtrack_total {p : Profile} {deg : Mat F} {fd pd : F} (wd : deg.WF) :
    ∀ (l : List (Mat F × Nat × List Nat)) (o : Nat), o < deg.ncols →
      (∀ x ∈ l, x.2.2.length = deg.ncols ∧ (∀ o : Nat, o ≤ deg.ncols → ∃ r, measurePatchSimilarity p x.1 (deg.window o x.1.ncols) = .ok r) ∧
        deg.ncols + x.1.ncols < usizeMod) →
      (∀ x ∈ l.dropLast, ∀ (o : Nat) b, x.2.2[o]? = some b → b ≤ o) →
      ∃ rs, backtrack p deg fd pd l o = .ok rs
  | [], _, _, _, _ => ⟨[], rfl⟩
  | (m, i, bt) :: l, o, ho, hl, hb => by
    obtain ⟨h1, h2, h3⟩ := hl (m, i, bt) (by simp)
    dsimp only at h1 h2 h3
    obtain ⟨r, hr⟩ := h2 o (by omega)
    have hbo : o < bt.length := by omega
    have hstep : ∃ q, backtraceStep p deg fd pd m i bt o = .ok (q, bt[o]) := by
      unfold backtraceStep
      rw [buildDegradedPatch_window wd (by omega) (by omega)]
      simp only [ok_bind, hr]
      rw [idx_of_lt hbo]
      exact ⟨_, rfl⟩
    obtain ⟨q, hq⟩ := hstep
    have hrest : ∃ rs, backtrack p deg fd pd l bt[o] = .ok rs := by
      cases l with
      | nil => exact ⟨[], rfl⟩
      | cons y l =>
        refine backtrack_total wd (y :: l) _ ?_ (fun x hx => hl x (by simp [hx])) ?_
        · have := hb (m, i, bt) (by simp [List.dropLast]) o bt[o] (List.getElem?_eq_getElem hbo)
          omega
        · intro x hx
          exact hb x (by rw [List.dropLast_cons_of_ne_nil (by simp)]; simp [hx])
    obtain ⟨rs, hrs⟩ := hrest
    unfold backtrack
    rw [hq]
    simp only [ok_bind, hrs]
    exact ⟨_, rfl⟩

end any

/-! ## Exact arithmetic -/

theorem minVal_lt {B : ℝ} (hB : B ≤ 18446744073709551616) : 1 + (Flt.minVal : ℝ) < -B := by
  rw [real_minVal]
  have e : (2 : ℝ) ^ 1024 = 2 ^ 53 * 2 ^ 971 := by rw [← pow_add]
  have h1 : (2 : ℝ) ^ 65 ≤ 2 ^ 971 := pow_le_pow_right₀ (by norm_num) (by norm_num)
  rw [e]
  generalize (2 : ℝ) ^ 971 = x at h1
  norm_num at h1 ⊢
  linarith

theorem backScan_max {prev : List ℝ} {lower : Int} : ∀ (k : Nat) {b : Int} {best r : ℝ × Int}, b = lower + k - 1 →
    backScan prev lower b best = .ok r → best.1 ≤ r.1 ∧
      ∀ (j : Int) v, lower ≤ j → j ≤ b → prev[j.toNat]? = some v → v ≤ r.1
  | 0, b, best, r, hb, h => by
    rw [backScan_eq, if_neg (by omega)] at h
    cases h; exact ⟨le_refl _, fun j v h1 h2 _ => by omega⟩
  | k + 1, b, best, r, hb, h => by
    rw [backScan_eq, if_pos (by omega)] at h
    obtain ⟨v, hv, h⟩ := bind_ok h
    obtain ⟨h1, h2⟩ := backScan_max k (by omega) h
    have hv := idx_ok hv
    have h3 : best.1 ≤ r.1 ∧ v ≤ r.1 := by
      by_cases hc : best.1 < v
      · rw [if_pos (by simpa using hc)] at h1
        exact ⟨hc.le.trans h1, h1⟩
      · rw [if_neg (by simpa using hc)] at h1
        exact ⟨h1, (not_lt.mp hc).trans h1⟩
    refine ⟨h3.1, fun j w g1 g2 g3 => ?_⟩
    by_cases hj : j = b
    · subst hj
      rw [hv] at g3; cases g3; exact h3.2
    · exact h2 j w g1 (by omega) g3

/-- The meaning of one cell. -/
theorem dpCell_real {p : Profile} {pi : Nat} {row : List ℝ} {sw lo : Int} {o : Nat} {s v : ℝ} {b : Nat} {B : ℝ}
    (hB : B ≤ 18446744073709551616) (hrow : ∀ x ∈ row, |x| ≤ B) (hs : |s| ≤ 1) (hlo : i32 p (wrapI32 pi - sw) = .ok lo)
    (h : dpCell p (some (pi, row)) sw o s = .ok (v, b)) :
    ∃ same, row[o]? = some same ∧ b ≤ o ∧ same ≤ v ∧ |v| ≤ B + 1 ∧ (b = o → v = same) ∧
      (b < o → lo ≤ b ∧ ∃ x, row[b]? = some x ∧ v = s + x) ∧ ∀ (j : Nat) x, j < o → lo ≤ j → row[j]? = some x → s + x ≤ v := by
  unfold dpCell at h
  dsimp only at h
  rw [hlo] at h
  simp only [ok_bind] at h
  obtain ⟨⟨hi, past⟩, hb, h⟩ := bind_ok h
  replace h := bind_ok h
  obtain ⟨same, hsame, h⟩ := h
  dsimp only at h
  have hsame := idx_ok hsame
  have hsB := hrow same (List.mem_of_getElem? hsame)
  have hmax : ∀ (j : Nat) x, j < o → lo ≤ j → row[j]? = some x → x ≤ hi := by
    intro j x h1 h2 h3
    have := (backScan_max ((o : Int) - max lo 0).toNat (by omega) hb).2 (j : Int) x (by omega) (by omega) (by simpa using h3)
    exact this
  split at h
  · rename_i hc
    simp only [real_lt, decide_eq_true_eq] at hc
    cases h
    refine ⟨v, hsame, le_refl _, le_refl _, by linarith, fun _ => rfl, fun hlt => absurd hlt (lt_irrefl _), ?_⟩
    intro j x h1 h2 h3
    have := hmax j x h1 h2 h3
    linarith
  · rename_i hc
    simp only [real_lt, decide_eq_true_eq, not_lt] at hc
    cases h
    rcases backScan_ok hb with e | ⟨e1, e2, e3⟩
    · exfalso
      cases e
      have := minVal_lt hB
      have := abs_le.mp hsB
      have := abs_le.mp hs
      linarith
    · dsimp only at e1 e2 e3
      have hp : i32ToUsize past = past.toNat := i32ToUsize_nonneg (by omega)
      rw [hp]
      have hxB := hrow hi (List.mem_of_getElem? e3)
      refine ⟨same, hsame, by omega, hc, ?_, fun he => ?_, fun hlt => ⟨by omega, hi, e3, rfl⟩, ?_⟩
      · calc |s + hi| ≤ |s| + |hi| := abs_add_le _ _
          _ ≤ B + 1 := by linarith
      · exfalso; omega
      · intro j x h1 h2 h3
        have := hmax j x h1 h2 h3
        linarith

/-- The similarity of a patch with a stretch, at most 1 in absolute value. -/
theorem measure_abs_le {p : Profile} {a b : Mat ℝ} {n : PatchSim ℝ} (wa : a.WF) (wb : b.WF)
    (h : measurePatchSimilarity p a b = .ok n) : |n.similarity| ≤ 1 := by
  have := (C07_nsim_bounds p a b wa wb n h).2
  exact abs_le.mpr ⟨this.1.le, this.2⟩

/-- The meaning of one row after a previous one. -/
theorem findOne_real_succ {p : Profile} {nc : Nat} {rp : Mat ℝ} {dps : List (Mat ℝ)} {pi ri : Nat} {prow : List ℝ} {sw lo : Int}
    {row : List ℝ} {bt : List Nat} {B : ℝ} (hB : B ≤ 18446744073709551616) (hB0 : 0 ≤ B) (hrow : ∀ x ∈ prow, |x| ≤ B)
    (wr : rp.WF) (wd : ∀ d ∈ dps, d.WF) (hlo : i32 p (wrapI32 pi - sw) = .ok lo)
    (h : findMostOptimalDegPatch p nc rp dps (some (pi, prow)) ri sw = .ok (row, bt)) :
    (∀ x ∈ row, |x| ≤ B + 1) ∧ ∀ (o : Nat) b, bt[o]? = some b → b ≤ o := by
  obtain ⟨h1, h2, l, u, _, _, h5⟩ := findOne_ok h
  have key : ∀ o < nc, ∃ v b, row[o]? = some v ∧ bt[o]? = some b ∧ |v| ≤ B + 1 ∧ b ≤ o := by
    intro o ho
    obtain ⟨v, b, e1, e2, e3, e4⟩ := h5 o ho
    refine ⟨v, b, e1, e2, ?_⟩
    by_cases hc : l ≤ (o : Int) ∧ (o : Int) ≤ u
    · obtain ⟨d, n, g1, g2, g3⟩ := (e3 hc).out
      obtain ⟨same, _, k1, _, k2, _⟩ := dpCell_real hB hrow (measure_abs_le wr (wd d (List.mem_of_getElem? g1)) g2) hlo g3
      exact ⟨k2, k1⟩
    · obtain ⟨q1, q2⟩ := e4 hc
      rw [q1, q2, real_lit0, abs_zero]
      exact ⟨by linarith, Nat.zero_le _⟩
  constructor
  · intro x hx
    obtain ⟨o, ho⟩ := List.getElem?_of_mem hx
    obtain ⟨v, b, e1, _, e3, _⟩ := key o (by rw [← h1]; exact (List.getElem?_eq_some_iff.mp ho).1)
    rw [ho] at e1; cases e1; exact e3
  · intro o b hb
    obtain ⟨v, b', _, e2, _, e4⟩ := key o (by rw [← h2]; exact (List.getElem?_eq_some_iff.mp hb).1)
    rw [hb] at e2; cases e2; exact e4

/-- The first row. -/
theorem findOne_real_zero {p : Profile} {nc : Nat} {rp : Mat ℝ} {dps : List (Mat ℝ)} {ri : Nat} {sw : Int}
    {row : List ℝ} {bt : List Nat} (wr : rp.WF) (wd : ∀ d ∈ dps, d.WF)
    (h : findMostOptimalDegPatch p nc rp dps none ri sw = .ok (row, bt)) : ∀ x ∈ row, |x| ≤ 1 := by
  obtain ⟨h1, h2, l, u, _, _, h5⟩ := findOne_ok h
  intro x hx
  obtain ⟨o, ho⟩ := List.getElem?_of_mem hx
  obtain ⟨v, b, e1, e2, e3, e4⟩ := h5 o (by rw [← h1]; exact (List.getElem?_eq_some_iff.mp ho).1)
  rw [ho] at e1; cases e1
  by_cases hc : l ≤ (o : Int) ∧ (o : Int) ≤ u
  · obtain ⟨d, n, g1, g2, g3⟩ := (e3 hc).out
    cases g3
    exact measure_abs_le wr (wd d (List.mem_of_getElem? g1)) g2
  · rw [(e4 hc).1, real_lit0, abs_zero]; exact zero_le_one

/-- Bounds for all rows. -/
theorem dpRows_real {p : Profile} {nc : Nat} {dps : List (Mat ℝ)} {sw : Int} {l : List (Mat ℝ × Nat)}
    {rows : List (List ℝ × List Nat)} (h : dpRows p nc dps sw none l = .ok rows) (hl : l.length ≤ 18446744073709551615)
    (wr : ∀ x ∈ l, x.1.WF) (wd : ∀ d ∈ dps, d.WF) (hlo : ∀ x ∈ l, ∃ lo, i32 p (wrapI32 x.2 - sw) = .ok lo) :
    ∀ (k : Nat) r, rows[k]? = some r → (∀ x ∈ r.1, |x| ≤ (k : ℝ) + 1) ∧ r.1.length = nc ∧ r.2.length = nc ∧
      (0 < k → ∀ (o : Nat) b, r.2[o]? = some b → b ≤ o) := by
  have hrl := dpRows_length _ _ _ h
  intro k
  induction k with
  | zero =>
    intro r hr
    have hk : 0 < l.length := by rw [← hrl]; exact (List.getElem?_eq_some_iff.mp hr).1
    obtain ⟨r', e1, prev, e2, e3, _⟩ := dpRows_get _ _ _ h 0 _ _ (List.getElem?_eq_getElem hk)
    rw [hr] at e1; cases e1
    rw [e3 rfl] at e2
    obtain ⟨g1, g2, _⟩ := findOne_ok (row := r.1) (bt := r.2) e2
    refine ⟨?_, g1, g2, fun hc => absurd hc (lt_irrefl _)⟩
    have := findOne_real_zero (row := r.1) (bt := r.2) (wr _ (List.getElem_mem hk)) wd e2
    simpa using this
  | succ k ih =>
    intro r hr
    have hk : k + 1 < l.length := by rw [← hrl]; exact (List.getElem?_eq_some_iff.mp hr).1
    obtain ⟨r', e1, prev, e2, _, e4⟩ := dpRows_get _ _ _ h (k + 1) _ _ (List.getElem?_eq_getElem hk)
    rw [hr] at e1; cases e1
    obtain ⟨m', i', r', f1, f2, f3⟩ := e4 k rfl
    rw [f3] at e2
    obtain ⟨g1, g2, _⟩ := findOne_ok (row := r.1) (bt := r.2) e2
    obtain ⟨b1, b2, b3, _⟩ := ih r' f2
    obtain ⟨lo, hlo⟩ := hlo _ (List.mem_of_getElem? f1)
    have hB : (k : ℝ) + 1 ≤ 18446744073709551616 := by
      have : k + 1 ≤ 18446744073709551616 := by omega
      exact_mod_cast this
    obtain ⟨q1, q2⟩ := findOne_real_succ (row := r.1) (bt := r.2) hB (by positivity) b1 (wr _ (List.getElem_mem hk)) wd hlo e2
    refine ⟨?_, g1, g2, fun _ => q2⟩
    intro x hx
    have := q1 x hx
    push_cast
    exact this

end Visqol
