import Verif.Num.Real
import Verif.Model.Svr
import Verif.Lemmas.SvrBound
import Verif.Lemmas.SvrQuad

/-! # The default model over the real numbers -/

namespace Visqol.Svr
open Finset

/-! ## Lists and sums -/

theorem sumNat_cast (l : List ℕ) : ∀ n, l.length ≤ n → (sumNat l : ℝ) = ∑ i ∈ range n, (l.getD i 0 : ℝ) := by
  induction l with
  | nil => intro n _; simp [sumNat]
  | cons a l ih =>
    intro n hn
    obtain ⟨k, rfl⟩ : ∃ k, n = k + 1 := ⟨n - 1, by simp at hn; omega⟩
    rw [sum_range_succ', sumNat, Nat.cast_add, ih k (by simpa using hn), add_comm]
    simp

theorem dot2_cast (l : List ℕ) : ∀ (m : List ℕ) (n), l.length ≤ n →
    (dot2 l m : ℝ) = ∑ i ∈ range n, (l.getD i 0 : ℝ) * (m.getD i 0 : ℝ) := by
  induction l with
  | nil => intro m n _; simp [dot2]
  | cons a l ih =>
    intro m n hn
    cases m with
    | nil => simp [dot2]
    | cons b m =>
      obtain ⟨k, rfl⟩ : ∃ k, n = k + 1 := ⟨n - 1, by simp at hn; omega⟩
      rw [sum_range_succ', dot2, Nat.cast_add, ih m k (by simpa using hn), add_comm]
      simp

theorem dot3_cast (l : List ℕ) : ∀ (m p : List ℕ) (n), l.length ≤ n →
    (dot3 l m p : ℝ) = ∑ i ∈ range n, (l.getD i 0 : ℝ) * (m.getD i 0 : ℝ) * (p.getD i 0 : ℝ) := by
  induction l with
  | nil => intro m p n _; simp [dot3]
  | cons a l ih =>
    intro m p n hn
    cases m with
    | nil => simp [dot3]
    | cons b m =>
      cases p with
      | nil => simp [dot3]
      | cons c p =>
        obtain ⟨k, rfl⟩ : ∃ k, n = k + 1 := ⟨n - 1, by simp at hn; omega⟩
        rw [sum_range_succ', dot3, Nat.cast_add, ih m p k (by simpa using hn), add_comm]
        simp

theorem tail_cast (l : List ℕ) : ∀ (m : List ℕ) (n), l.length ≤ n →
    (tail l m : ℝ) = ∑ i ∈ range n, (l.getD i 0 : ℝ) * ((4 * (m.getD i 0 : ℝ)) ^ 3 * (16 * 10 ^ 13 + 5 * (4 * (m.getD i 0 : ℝ)))) := by
  induction l with
  | nil => intro m n _; simp [tail]
  | cons a l ih =>
    intro m n hn
    cases m with
    | nil => simp [tail]
    | cons b m =>
      obtain ⟨k, rfl⟩ : ∃ k, n = k + 1 := ⟨n - 1, by simp at hn; omega⟩
      rw [sum_range_succ', tail, Nat.cast_add, ih m k (by simpa using hn), add_comm]
      simp only [List.getD_cons_succ, List.getD_cons_zero]
      push_cast
      norm_num

/-- The sum over a list of columns. -/
theorem sumNat_map {α : Type} (f : α → ℕ) (d : α) (l : List α) :
    (sumNat (l.map f) : ℝ) = ∑ j ∈ range l.length, (f (l.getD j d) : ℝ) := by
  induction l with
  | nil => simp [sumNat]
  | cons a l ih =>
    rw [List.map_cons, sumNat, List.length_cons, sum_range_succ', Nat.cast_add, ih, add_comm]
    simp

theorem replicate_getD (n i : ℕ) : (List.replicate n 0).getD i 0 = 0 := by
  by_cases h : i < n <;> simp [List.getD, List.getElem?_replicate, h]

theorem addDist_length (w : ℕ) (l : List ℕ) : ∀ m : List ℕ, (addDist w l m).length = min l.length m.length := by
  induction l with
  | nil => intro m; cases m <;> simp [addDist]
  | cons a l ih => intro m; cases m <;> simp [addDist, ih]

theorem addDist_getD (w : ℕ) (l : List ℕ) : ∀ (m : List ℕ) (i), i < l.length → i < m.length →
    ((addDist w l m).getD i 0 : ℝ) = (l.getD i 0 : ℝ) + ((m.getD i 0 : ℝ) - w) ^ 2 := by
  induction l with
  | nil => intro m i h; simp at h
  | cons a l ih =>
    intro m i h1 h2
    cases m with
    | nil => simp at h2
    | cons b m =>
      cases i with
      | zero =>
        simp only [addDist, List.getD_cons_zero]
        push_cast
        rcases le_total b w with h | h
        · rw [Nat.sub_eq_zero_of_le h, Nat.cast_sub h]; push_cast; ring
        · rw [Nat.sub_eq_zero_of_le h, Nat.cast_sub h]; push_cast; ring
      | succ i =>
        simp only [addDist, List.getD_cons_succ]
        exact ih m i (by simpa using h1) (by simpa using h2)

theorem dists_spec (cs : List (List ℕ)) : ∀ ws : List ℕ, (∀ c ∈ cs, c.length = 317) → (dists cs ws).length = 317 ∧
    ∀ i < 317, ((dists cs ws).getD i 0 : ℝ) = ∑ j ∈ range cs.length, (((cs.getD j []).getD i 0 : ℝ) - (ws.getD j 0 : ℝ)) ^ 2 := by
  induction cs with
  | nil =>
    intro ws _
    refine ⟨List.length_replicate, fun i hi => ?_⟩
    have := replicate_getD 317 i
    rw [dists, this]; simp
  | cons c cs ih =>
    intro ws h
    cases ws with
    | nil =>
      obtain ⟨a, b⟩ := ih [] fun x hx => h x (List.mem_cons_of_mem _ hx)
      have hc := h c List.mem_cons_self
      refine ⟨by rw [dists, addDist_length, a, hc]; rfl, fun i hi => ?_⟩
      rw [dists, addDist_getD _ _ _ _ (by omega) (by omega), b i hi, List.length_cons, sum_range_succ']
      simp
    | cons w ws =>
      obtain ⟨a, b⟩ := ih ws fun x hx => h x (List.mem_cons_of_mem _ hx)
      have hc := h c List.mem_cons_self
      refine ⟨by rw [dists, addDist_length, a, hc]; rfl, fun i hi => ?_⟩
      rw [dists, addDist_getD _ _ _ _ (by omega) (by omega), b i hi, List.length_cons, sum_range_succ']
      simp

theorem addTo_length (l : List ℕ) : ∀ m : List ℕ, (addTo l m).length = min l.length m.length := by
  induction l with
  | nil => intro m; cases m <;> simp [addTo]
  | cons a l ih => intro m; cases m <;> simp [addTo, ih]

theorem addTo_getD (l : List ℕ) : ∀ (m : List ℕ) (i), i < l.length → i < m.length →
    ((addTo l m).getD i 0 : ℝ) = (l.getD i 0 : ℝ) + (m.getD i 0 : ℝ) := by
  induction l with
  | nil => intro m i h; simp at h
  | cons a l ih =>
    intro m i h1 h2
    cases m with
    | nil => simp at h2
    | cons b m =>
      cases i with
      | zero => simp [addTo]
      | succ i =>
        simp only [addTo, List.getD_cons_succ]
        exact ih m i (by simpa using h1) (by simpa using h2)

theorem totals_spec (cs : List (List ℕ)) : (∀ c ∈ cs, c.length = 317) → (totals cs).length = 317 ∧
    ∀ i < 317, ((totals cs).getD i 0 : ℝ) = ∑ j ∈ range cs.length, ((cs.getD j []).getD i 0 : ℝ) := by
  induction cs with
  | nil =>
    intro _
    refine ⟨List.length_replicate, fun i hi => ?_⟩
    have := replicate_getD 317 i
    rw [totals, this]; simp
  | cons c cs ih =>
    intro h
    obtain ⟨a, b⟩ := ih fun x hx => h x (List.mem_cons_of_mem _ hx)
    have hc := h c List.mem_cons_self
    refine ⟨by rw [totals, addTo_length, a, hc]; rfl, fun i hi => ?_⟩
    rw [totals, addTo_getD _ _ _ (by omega) (by omega), b i hi, List.length_cons, sum_range_succ']
    simp

/-! ## Rows and columns -/

theorem checkRow_spec (xs : List ℤ) : ∀ cs : List (List ℕ), checkRow xs cs = true → xs = cs.map fun c => (10 : ℤ) ^ 11 - (c.getD 0 0 : ℕ) := by
  induction xs with
  | nil => intro cs h; cases cs <;> simp [checkRow] at h ⊢
  | cons x xs ih =>
    intro cs h
    cases cs with
    | nil => simp [checkRow] at h
    | cons c cs =>
      cases c with
      | nil => simp [checkRow] at h
      | cons t c =>
        simp only [checkRow, Bool.and_eq_true] at h
        rw [List.map_cons, ← ih cs h.2]
        congr 1
        have h1 := h.1
        cases x with
        | ofNat k =>
          have h2 : k + t = 10 ^ 11 := by simpa using h1
          simp only [List.getD_cons_zero]
          have : ((k + t : ℕ) : ℤ) = ((10 ^ 11 : ℕ) : ℤ) := by rw [h2]
          push_cast at this
          simp only [Int.ofNat_eq_natCast]
          linarith
        | negSucc k =>
          have h2 : t = 10 ^ 11 + (k + 1) := by simpa using h1
          simp only [List.getD_cons_zero, Int.negSucc_eq]
          rw [h2]; push_cast; ring

theorem checkRows_spec (rs : List (ℤ × List ℤ)) : ∀ (ps ns : List ℕ) (cs : List (List ℕ)), checkRows rs ps ns cs = true →
    ps.length = rs.length ∧ ns.length = rs.length ∧
    rs = (List.range rs.length).map fun i => ((ps.getD i 0 : ℤ) - (ns.getD i 0 : ℤ), cs.map fun c => (10 : ℤ) ^ 11 - (c.getD i 0 : ℕ)) := by
  induction rs with
  | nil => intro ps ns cs h; cases ps <;> cases ns <;> simp [checkRows] at h ⊢
  | cons r rs ih =>
    intro ps ns cs h
    obtain ⟨x, s⟩ := r
    cases ps with
    | nil => simp [checkRows] at h
    | cons p ps =>
      cases ns with
      | nil => simp [checkRows] at h
      | cons n ns =>
        simp only [checkRows, Bool.and_eq_true] at h
        obtain ⟨⟨h1, h2⟩, h3⟩ := h
        obtain ⟨a, b, c⟩ := ih _ _ _ h3
        refine ⟨by simp [a], by simp [b], ?_⟩
        rw [List.length_cons, List.range_succ_eq_map, List.map_cons, List.map_map]
        congr 1
        · refine Prod.ext ?_ (checkRow_spec _ _ h2)
          cases x with
          | ofNat k =>
            have h4 : k + n = p := by simpa using h1
            simp only [List.getD_cons_zero, ← h4, Int.ofNat_eq_natCast]
            push_cast; ring
          | negSucc k =>
            have h4 : p + (k + 1) = n := by simpa using h1
            simp only [List.getD_cons_zero, ← h4, Int.negSucc_eq]
            push_cast; ring
        · conv_lhs => rw [c]
          refine List.map_congr_left fun i _ => ?_
          simp only [Function.comp, List.getD_cons_succ, List.map_map]
          refine Prod.ext rfl (List.map_congr_left fun d _ => ?_)
          cases d <;> simp

/-! ## The exponential -/

theorem even_odd (x : ℕ) : ((evenTerms x : ℝ) - oddTerms x) / (362880 * 10 ^ 216) =
    ∑ m ∈ range 10, (-(x / 10 ^ 24 : ℝ)) ^ m / (m.factorial : ℝ) := by
  simp only [sum_range_succ, sum_range_zero, Nat.factorial]
  unfold evenTerms oddTerms
  push_cast
  field_simp
  ring

theorem floor_near (d D : ℕ) (hD : 0 < (D : ℝ)) : |(d / D : ℝ) - (d * 10 ^ 15 / D : ℕ) / 10 ^ 15| ≤ 1 / 10 ^ 15 := by
  have h1 : (d * 10 ^ 15 / D : ℕ) * (D : ℝ) ≤ d * 10 ^ 15 := by exact_mod_cast Nat.div_mul_le_self (d * 10 ^ 15) D
  have h2 : (d * 10 ^ 15 : ℝ) < D * ((d * 10 ^ 15 / D : ℕ) + 1) := by
    exact_mod_cast Nat.lt_mul_div_succ (d * 10 ^ 15) (by exact_mod_cast hD)
  generalize ((d * 10 ^ 15 / D : ℕ) : ℝ) = f at h1 h2 ⊢
  have k1 : f ≤ d * 10 ^ 15 / D := by rw [le_div_iff₀ hD]; exact h1
  have k2 : d * 10 ^ 15 / D ≤ f + 1 := by rw [div_le_iff₀ hD]; linarith
  have k3 : (d * 10 ^ 15 / D : ℝ) = d / D * 10 ^ 15 := by ring
  rw [k3] at k1 k2
  rw [abs_le]
  constructor <;> linarith

theorem expNat_near {x : ℕ} (h : x ≤ 4 * 10 ^ 23) : |Real.exp (-(x / 10 ^ 24 : ℝ)) - expNat x / 10 ^ 15| ≤ 1 / 10 ^ 10 := by
  have hx : (x / 10 ^ 24 : ℝ) ≤ 2 / 5 := by
    have : (x : ℝ) ≤ 4 * 10 ^ 23 := by exact_mod_cast h
    rw [div_le_iff₀ (by norm_num)]
    linarith
  have hx0 : (0 : ℝ) ≤ x / 10 ^ 24 := by positivity
  have hb := Real.exp_bound (x := -(x / 10 ^ 24 : ℝ)) (n := 10) (by rw [abs_neg, abs_of_nonneg hx0]; linarith) (by norm_num)
  rw [← even_odd, abs_neg, abs_of_nonneg hx0] at hb
  have hp : (x / 10 ^ 24 : ℝ) ^ 10 ≤ (2 / 5) ^ 10 := pow_le_pow_left₀ hx0 hx 10
  have hb2 : |Real.exp (-(x / 10 ^ 24 : ℝ)) - ((evenTerms x : ℝ) - oddTerms x) / (362880 * 10 ^ 216)| ≤ 5 / 10 ^ 11 := by
    refine hb.trans ((mul_le_mul_of_nonneg_right hp (by positivity)).trans ?_)
    norm_num [Nat.factorial]
  have he : 3 / 5 ≤ Real.exp (-(x / 10 ^ 24 : ℝ)) := by
    have := Real.add_one_le_exp (-(x / 10 ^ 24 : ℝ))
    linarith
  have hD : (0 : ℝ) < 362880 * 10 ^ 216 := by positivity
  have hT : 0 < ((evenTerms x : ℝ) - oddTerms x) / (362880 * 10 ^ 216) := by
    have := (abs_le.mp hb2).2
    have : (5 / 10 ^ 11 : ℝ) < 3 / 5 := by norm_num
    linarith
  have hle : oddTerms x ≤ evenTerms x := by
    have := (div_pos_iff_of_pos_right hD).mp hT
    exact_mod_cast (by linarith : (oddTerms x : ℝ) ≤ evenTerms x)
  have hfl : |((evenTerms x : ℝ) - oddTerms x) / (362880 * 10 ^ 216) - expNat x / 10 ^ 15| ≤ 1 / 10 ^ 15 := by
    obtain ⟨d, hd⟩ := Nat.exists_eq_add_of_le hle
    have h1 : ((evenTerms x : ℝ) - oddTerms x) = (d : ℝ) := by rw [hd]; push_cast; ring
    have h2 : expNat x = d * 10 ^ 15 / (362880 * 10 ^ 216) := by rw [expNat, hd, Nat.add_sub_cancel_left]
    have h3 : ((362880 * 10 ^ 216 : ℕ) : ℝ) = 362880 * 10 ^ 216 := by rw [Nat.cast_mul, Nat.cast_pow]; rfl
    rw [h1, h2, ← h3]
    exact floor_near d _ (by rw [h3]; exact hD)
  have := abs_sub_le (Real.exp (-(x / 10 ^ 24 : ℝ))) (((evenTerms x : ℝ) - oddTerms x) / (362880 * 10 ^ 216)) (expNat x / 10 ^ 15)
  have : (5 / 10 ^ 11 + 1 / 10 ^ 15 : ℝ) ≤ 1 / 10 ^ 10 := by norm_num
  linarith only [this, hb2, hfl, ‹|Real.exp (-(x / 10 ^ 24 : ℝ)) - expNat x / 10 ^ 15| ≤ _›]

end Visqol.Svr
