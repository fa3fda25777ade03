import Verif.Lemmas.IeeeBound
import Verif.Lemmas.IeeeMatch

/-! # The matching tables in floating point -/

set_option linter.unusedSectionVars false

namespace Visqol
open Ieee
variable {F : Type} [Flt F] [Ieee F]

theorem grow_905 {S : ℝ} {k : ℕ} (hS0 : 1 ≤ S) (hS : S ≤ 2 ^ 850) (hk : k ≤ 2 ^ 50) : grow S k ≤ 2 ^ 905 := by
  refine (grow_le (by linarith) hk).trans ?_
  have h3 : (k : ℝ) ≤ 2 ^ 50 := by exact_mod_cast hk
  calc 2 * (k : ℝ) * S ≤ 2 * 2 ^ 50 * 2 ^ 850 := by gcongr
    _ = 2 ^ 901 := by rw [mul_assoc, ← pow_add, ← pow_succ']
    _ ≤ 2 ^ 905 := two_pow_mono (by norm_num)

theorem Bd.val {a : F} {B : ℝ} (h : Bd B a) : ∃ x, Is a x := by obtain ⟨x, h, _⟩ := h; exact ⟨x, h⟩

/-- The meaning of one cell: it keeps the value in the same column, or adds the largest value in the allowed columns before
it; whichever is larger. -/
theorem dpCell_ieee {p : Profile} {pi : Nat} {row : List F} {sw lo : Int} {o k : Nat} {s v : F} {b : Nat} {S : ℝ}
    (hS0 : 1 ≤ S) (hS : S ≤ 2 ^ 850) (hk : k + 1 ≤ 2 ^ 50) (hrow : ∀ x ∈ row, Bd (grow S k) x) (hs : Bd S s)
    (hlo : i32 p (wrapI32 pi - sw) = .ok lo) (h : dpCell p (some (pi, row)) sw o s = .ok (v, b)) :
    ∃ same, row[o]? = some same ∧ b ≤ o ∧ Bd (grow S (k + 1)) v ∧ (b = o → v = same) ∧
      (b < o → lo ≤ b ∧ ∃ x, row[b]? = some x ∧ v = s + x ∧
        ∀ (j : Nat) x', j < o → lo ≤ j → row[j]? = some x' → Flt.lt x x' = false) ∧ Flt.lt v same = false ∧
      ∀ (j : Nat) x, j < o → lo ≤ j → row[j]? = some x → Flt.lt v (s + x) = false := by
  have hg : 0 ≤ grow S k := grow_nonneg (by linarith)
  have hg1 : grow S k ≤ grow S (k + 1) := grow_mono (by linarith) (by omega)
  have hg2 : grow S k ≤ 2 ^ 905 := grow_905 hS0 hS (by omega)
  have hS9 : S ≤ 2 ^ 900 := hS.trans (two_pow_mono (by norm_num))
  unfold dpCell at h
  dsimp only at h
  rw [hlo] at h
  simp only [ok_bind] at h
  obtain ⟨⟨hi, past⟩, hb, h⟩ := bind_ok h
  replace h := bind_ok h
  obtain ⟨same, hsame, h⟩ := h
  dsimp only at h
  have hsame := idx_ok hsame
  obtain ⟨sx, hsx, hsb⟩ := hrow same (List.mem_of_getElem? hsame)
  obtain ⟨y, hy, hyb⟩ := hs
  obtain ⟨M, hM, _⟩ := minVal_below (F := F)
  have hscan : (hi, past) = ((Flt.minVal : F), (-1 : Int)) ∨
      (max lo 0 ≤ past ∧ past ≤ (o : Int) - 1 ∧ row[past.toNat]? = some hi) := backScan_ok hb
  rcases hscan with e | ⟨e1, e2, e3⟩
  · -- nothing was found, so nothing was scanned
    have hlt : Flt.lt (s + hi) same = true := by
      cases e
      exact add_minVal_lt hy (hyb.trans (hS.trans (two_pow_mono (by norm_num)))) hsx (hsb.trans hg2)
    rw [if_pos hlt] at h
    cases h
    refine ⟨v, hsame, le_refl _, ⟨sx, hsx, hsb.trans hg1⟩, fun _ => rfl, fun hc => absurd hc (lt_irrefl _), ?_, ?_⟩
    · rw [Is.lt hsx hsx]; simp
    · intro j x h1 h2 h3
      exfalso
      obtain ⟨z, hz, _, hzmax⟩ := backScan_val (fun a ha => (hrow a ha).val) ((o : Int) - max lo 0).toNat (by omega) hM hb
      cases e
      rw [Is, hM] at hz
      cases hz
      obtain ⟨xv, f1, f2⟩ := hrow x (List.mem_of_getElem? h3)
      have f3 := hzmax (j : Int) (by omega) (by omega) x xv (by simpa using h3) f1
      have f4 := abs_le.mp (f2.trans hg2)
      obtain ⟨M', hM', hM2⟩ := minVal_below (F := F)
      rw [Is, hM] at hM'
      cases hM'
      have h9 : (2 : ℝ) ^ 905 < 2 ^ 1000 := pow_lt_pow_right₀ (by norm_num) (by norm_num)
      clear hg2 f2 hsb hyb hS hS9
      generalize (2 : ℝ) ^ 905 = A at *
      generalize (2 : ℝ) ^ 1000 = B at *
      linarith [f4.1]
  · obtain ⟨z, hz, _, hzmax⟩ := backScan_val (fun a ha => (hrow a ha).val) ((o : Int) - max lo 0).toNat (by omega) hM hb
    dsimp only at hz
    obtain ⟨z', hz', hzb⟩ := hrow hi (List.mem_of_getElem? e3)
    rw [Is, hz] at hz'
    cases hz'
    obtain ⟨t, ht, htb⟩ := grow_step (F := F) hS0 hS9 hk hzb hyb
    have ht' : Is (s + hi) t := (Is.add hy hz).trans (by rw [add_comm]; exact ht)
    -- the sum that was formed is at least every other sum
    have hsums : ∀ (j : Nat) x, j < o → lo ≤ j → row[j]? = some x → ∃ u, Is (s + x) u ∧ u ≤ t := by
      intro j x h1 h2 h3
      obtain ⟨xv, f1, f2⟩ := hrow x (List.mem_of_getElem? h3)
      have f3 := hzmax (j : Int) (by omega) (by omega) x xv (by simpa using h3) f1
      obtain ⟨u, hu, _⟩ := grow_step (F := F) hS0 hS9 hk f2 hyb
      have hu' : Is (s + x) u := (Is.add hy f1).trans (by rw [add_comm]; exact hu)
      exact ⟨u, hu', rnd_mono (F := F) (xv + y) (z + y) u t (by linarith) hu ht⟩
    by_cases hlt : Flt.lt (s + hi) same = true
    · rw [if_pos hlt] at h
      cases h
      rw [Is.lt ht' hsx, decide_eq_true_eq] at hlt
      refine ⟨v, hsame, le_refl _, ⟨sx, hsx, hsb.trans hg1⟩, fun _ => rfl, fun hc => absurd hc (lt_irrefl _), ?_, ?_⟩
      · rw [Is.lt hsx hsx]; simp
      · intro j x h1 h2 h3
        obtain ⟨u, hu, hle⟩ := hsums j x h1 h2 h3
        rw [Is.lt hsx hu, decide_eq_false]
        linarith
    · rw [if_neg hlt] at h
      cases h
      have hp : i32ToUsize past = past.toNat := i32ToUsize_nonneg (by omega)
      rw [hp]
      refine ⟨same, hsame, by omega, ⟨t, ht', htb⟩, fun he => by omega, fun hc => ⟨by omega, hi, e3, rfl, ?_⟩, ?_, ?_⟩
      · intro j x h1 h2 h3
        obtain ⟨xv, f1, f2⟩ := hrow x (List.mem_of_getElem? h3)
        rw [Is.lt hz f1, decide_eq_false]
        exact not_lt.mpr (hzmax (j : Int) (by omega) (by omega) x xv (by simpa using h3) f1)
      · simpa using hlt
      · intro j x h1 h2 h3
        obtain ⟨u, hu, hle⟩ := hsums j x h1 h2 h3
        rw [Is.lt ht' hu, decide_eq_false]
        linarith

/-- All similarities of a patch with the stretches are at most `S`. -/
def SimsBd (p : Profile) (S : ℝ) (dps : List (Mat F)) (m : Mat F) : Prop :=
  ∀ d ∈ dps, ∀ n, measurePatchSimilarity p m d = .ok n → Bd S n.similarity

/-- The meaning of one row after a previous one. -/
theorem findOne_ieee_succ {p : Profile} {nc : Nat} {rp : Mat F} {dps : List (Mat F)} {pi ri k : Nat} {prow : List F} {sw lo : Int}
    {row : List F} {bt : List Nat} {S : ℝ} (hS0 : 1 ≤ S) (hS : S ≤ 2 ^ 850) (hk : k + 1 ≤ 2 ^ 50)
    (hrow : ∀ x ∈ prow, Bd (grow S k) x) (hs : SimsBd p S dps rp) (hlo : i32 p (wrapI32 pi - sw) = .ok lo)
    (h : findMostOptimalDegPatch p nc rp dps (some (pi, prow)) ri sw = .ok (row, bt)) :
    (∀ x ∈ row, Bd (grow S (k + 1)) x) ∧ ∀ (o : Nat) b, bt[o]? = some b → b ≤ o := by
  obtain ⟨h1, h2, l, u, _, _, h5⟩ := findOne_ok h
  have key : ∀ o < nc, ∃ v b, row[o]? = some v ∧ bt[o]? = some b ∧ Bd (grow S (k + 1)) v ∧ b ≤ o := by
    intro o ho
    obtain ⟨v, b, e1, e2, e3, e4⟩ := h5 o ho
    refine ⟨v, b, e1, e2, ?_⟩
    by_cases hc : l ≤ (o : Int) ∧ (o : Int) ≤ u
    · obtain ⟨d, n, g1, g2, g3⟩ := (e3 hc).out
      obtain ⟨same, _, k1, k2, _⟩ := dpCell_ieee hS0 hS hk hrow (hs d (List.mem_of_getElem? g1) n g2) hlo g3
      exact ⟨k2, k1⟩
    · obtain ⟨q1, q2⟩ := e4 hc
      rw [q1, q2]
      exact ⟨⟨0, val_0, by rw [abs_zero]; exact grow_nonneg (by linarith)⟩, Nat.zero_le _⟩
  constructor
  · intro x hx
    obtain ⟨o, ho⟩ := List.getElem?_of_mem hx
    obtain ⟨v, b, e1, _, e3, _⟩ := key o (by rw [← h1]; exact (List.getElem?_eq_some_iff.mp ho).1)
    rw [ho] at e1; cases e1; exact e3
  · intro o b hb
    obtain ⟨v, b', _, e2, _, e4⟩ := key o (by rw [← h2]; exact (List.getElem?_eq_some_iff.mp hb).1)
    rw [hb] at e2; cases e2; exact e4

/-- The first row. -/
theorem findOne_ieee_zero {p : Profile} {nc : Nat} {rp : Mat F} {dps : List (Mat F)} {ri : Nat} {sw : Int}
    {row : List F} {bt : List Nat} {S : ℝ} (hS0 : 1 ≤ S) (hs : SimsBd p S dps rp)
    (h : findMostOptimalDegPatch p nc rp dps none ri sw = .ok (row, bt)) : ∀ x ∈ row, Bd (grow S 1) x := by
  obtain ⟨h1, h2, l, u, _, _, h5⟩ := findOne_ok h
  intro x hx
  obtain ⟨o, ho⟩ := List.getElem?_of_mem hx
  obtain ⟨v, b, e1, e2, e3, e4⟩ := h5 o (by rw [← h1]; exact (List.getElem?_eq_some_iff.mp ho).1)
  rw [ho] at e1; cases e1
  by_cases hc : l ≤ (o : Int) ∧ (o : Int) ≤ u
  · obtain ⟨d, n, g1, g2, g3⟩ := (e3 hc).out
    cases g3
    obtain ⟨y, y1, y2⟩ := hs d (List.mem_of_getElem? g1) n g2
    refine ⟨y, y1, y2.trans ?_⟩
    unfold grow
    have : (0 : ℝ) ≤ S / 2 ^ 50 := by positivity
    norm_num at this ⊢
    linarith
  · rw [(e4 hc).1]
    exact ⟨0, val_0, by rw [abs_zero]; exact grow_nonneg (by linarith)⟩

/-- Bounds for all rows. -/
theorem dpRows_ieee {p : Profile} {nc : Nat} {dps : List (Mat F)} {sw : Int} {l : List (Mat F × Nat)}
    {rows : List (List F × List Nat)} {S : ℝ} (hS0 : 1 ≤ S) (hS : S ≤ 2 ^ 850) (h : dpRows p nc dps sw none l = .ok rows)
    (hl : l.length ≤ 2 ^ 50) (hs : ∀ x ∈ l, SimsBd p S dps x.1) (hlo : ∀ x ∈ l, ∃ lo, i32 p (wrapI32 x.2 - sw) = .ok lo) :
    ∀ (k : Nat) r, rows[k]? = some r → (∀ x ∈ r.1, Bd (grow S (k + 1)) x) ∧ r.1.length = nc ∧ r.2.length = nc ∧
      (0 < k → ∀ (o : Nat) b, r.2[o]? = some b → b ≤ o) := by
  have hrl := dpRows_length _ _ _ h
  intro k
  induction k with
  | zero =>
    intro r hr
    have hk : 0 < l.length := by rw [← hrl]; exact (List.getElem?_eq_some_iff.mp hr).1
    obtain ⟨r', e1, prev, e2, e3, _⟩ := dpRows_get _ _ _ h 0 _ _ (List.getElem?_eq_getElem hk)
    rw [hr] at e1; cases e1
    rw [e3 rfl] at e2
    obtain ⟨g1, g2, _⟩ := findOne_ok (row := r.1) (bt := r.2) e2
    exact ⟨findOne_ieee_zero (row := r.1) (bt := r.2) hS0 (hs _ (List.getElem_mem hk)) e2, g1, g2,
      fun hc => absurd hc (lt_irrefl _)⟩
  | succ k ih =>
    intro r hr
    have hk : k + 1 < l.length := by rw [← hrl]; exact (List.getElem?_eq_some_iff.mp hr).1
    obtain ⟨r', e1, prev, e2, _, e4⟩ := dpRows_get _ _ _ h (k + 1) _ _ (List.getElem?_eq_getElem hk)
    rw [hr] at e1; cases e1
    obtain ⟨m', i', r', f1, f2, f3⟩ := e4 k rfl
    rw [f3] at e2
    obtain ⟨g1, g2, _⟩ := findOne_ok (row := r.1) (bt := r.2) e2
    obtain ⟨b1, b2, b3, _⟩ := ih r' f2
    obtain ⟨lo, hlo⟩ := hlo _ (List.mem_of_getElem? f1)
    obtain ⟨q1, q2⟩ := findOne_ieee_succ (row := r.1) (bt := r.2) hS0 hS (by omega) b1 (hs _ (List.getElem_mem hk)) hlo e2
    exact ⟨q1, g1, g2, fun _ => q2⟩

end Visqol
