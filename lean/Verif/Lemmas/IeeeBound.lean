import Verif.Lemmas.Ieee
import Verif.Num.Libm

/-! # Sizes of floating point results

`Pw n a`: the number is finite and at most `2ⁿ` in absolute value.  Generous: every operation may double the size. -/

set_option linter.unusedSectionVars false

namespace Visqol
open Ieee
variable {F : Type} [Flt F] [Ieee F]

/-- Finite with absolute value at most `B`. -/
def Bd (B : ℝ) (a : F) : Prop := ∃ x, Is a x ∧ |x| ≤ B

/-- Finite with absolute value at most `2ⁿ`. -/
def Pw (n : ℕ) (a : F) : Prop := ∃ x, Is a x ∧ |x| ≤ 2 ^ n

theorem two_pow_mono {m n : ℕ} (h : m ≤ n) : (2 : ℝ) ^ m ≤ 2 ^ n := pow_le_pow_right₀ (by norm_num) h

theorem tiny_le_one : (1 : ℝ) / 2 ^ 1000 ≤ 1 := by
  rw [div_le_one (by positivity)]; exact one_le_pow₀ (by norm_num)

theorem tiny_le_pow {n : ℕ} (h : n ≤ 1000) : (1 : ℝ) / 2 ^ 1000 ≤ 1 / 2 ^ n :=
  div_le_div_of_nonneg_left (by norm_num) (by positivity) (two_pow_mono h)

theorem Pw.mono {a : F} {m n : ℕ} (h : Pw m a) (hmn : m ≤ n) : Pw n a := by
  obtain ⟨x, h1, h2⟩ := h
  exact ⟨x, h1, h2.trans (two_pow_mono hmn)⟩

/-- A rounded result is at most twice the bound. -/
theorem rnd_double (F : Type) [Flt F] [Ieee F] {x B : ℝ} (hx : |x| ≤ B) (h1 : 1 ≤ B) (h2 : B ≤ 2 ^ 1000) :
    ∃ y, rnd F x = .fin y ∧ |y| ≤ 2 * B := by
  obtain ⟨y, e, he⟩ := rnd_acc (F := F) x (hx.trans h2)
  refine ⟨y, e, ?_⟩
  have h3 : |y| ≤ |y - x| + |x| := by have := abs_add_le (y - x) x; simpa using this
  have h4 : |x| / 2 ^ 52 ≤ B / 2 ^ 52 := div_le_div_of_nonneg_right hx (by positivity)
  have h5 := tiny_le_pow (n := 52) (by norm_num)
  generalize (1 : ℝ) / 2 ^ 1000 = u at *
  norm_num at h4 h5
  linarith

theorem Pw.of_rnd {a : F} {x : ℝ} {n : ℕ} (h : val a = rnd F x) (hx : |x| ≤ 2 ^ n) (hn : n ≤ 1000) : Pw (n + 1) a := by
  obtain ⟨y, e, hy⟩ := rnd_double F hx (one_le_pow₀ (by norm_num)) (two_pow_mono hn)
  refine ⟨y, h.trans e, hy.trans ?_⟩
  rw [pow_succ]; linarith

theorem Pw.add {a b : F} {n : ℕ} (ha : Pw n a) (hb : Pw n b) (hn : n ≤ 990) : Pw (n + 2) (a + b) := by
  obtain ⟨x, h1, h2⟩ := ha
  obtain ⟨y, h3, h4⟩ := hb
  refine Pw.of_rnd (n := n + 1) (Is.add h1 h3) ?_ (by omega)
  rw [pow_succ]
  exact (abs_add_le x y).trans (by linarith)

theorem Pw.sub {a b : F} {n : ℕ} (ha : Pw n a) (hb : Pw n b) (hn : n ≤ 990) : Pw (n + 2) (a - b) := by
  obtain ⟨x, h1, h2⟩ := ha
  obtain ⟨y, h3, h4⟩ := hb
  refine Pw.of_rnd (n := n + 1) (Is.sub h1 h3) ?_ (by omega)
  rw [pow_succ]
  exact (abs_sub x y).trans (by linarith)

theorem Pw.mul {a b : F} {m n : ℕ} (ha : Pw m a) (hb : Pw n b) (hn : m + n ≤ 990) : Pw (m + n + 1) (a * b) := by
  obtain ⟨x, h1, h2⟩ := ha
  obtain ⟨y, h3, h4⟩ := hb
  refine Pw.of_rnd (n := m + n) (Is.mul h1 h3) ?_ (by omega)
  rw [abs_mul, pow_add]
  exact mul_le_mul h2 h4 (abs_nonneg _) (by positivity)

theorem Pw.neg {a : F} {n : ℕ} (ha : Pw n a) : Pw n (-a) := by
  obtain ⟨x, h1, h2⟩ := ha
  exact ⟨-x, h1.neg, by rwa [abs_neg]⟩

theorem Pw.abs {a : F} {n : ℕ} (ha : Pw n a) : Pw n (Flt.abs a) := by
  obtain ⟨x, h1, h2⟩ := ha
  exact ⟨|x|, h1.abs, by rwa [abs_abs]⟩

/-- Division by a number that is not too small. -/
theorem Pw.div {a b : F} {m n : ℕ} {y : ℝ} (ha : Pw m a) (hb : Is b y) (hy : 1 / 2 ^ n ≤ |y|) (hn : m + n ≤ 990) :
    Pw (m + n + 1) (a / b) := by
  obtain ⟨x, h1, h2⟩ := ha
  have h0 : 0 < |y| := lt_of_lt_of_le (by positivity) hy
  have hy0 : y ≠ 0 := abs_pos.mp h0
  refine Pw.of_rnd (n := m + n) (Is.div h1 hb hy0) ?_ (by omega)
  rw [abs_div, div_le_iff₀ h0, pow_add]
  calc |x| ≤ 2 ^ m * 1 := by linarith
    _ ≤ 2 ^ m * (2 ^ n * |y|) := by
        apply mul_le_mul_of_nonneg_left _ (by positivity)
        rw [div_le_iff₀ (by positivity)] at hy
        linarith
    _ = 2 ^ m * 2 ^ n * |y| := by ring

theorem Pw.div_nat {a : F} {m k : ℕ} (ha : Pw m a) (h1 : 1 ≤ k) (h2 : k ≤ 2 ^ 53) (hn : m ≤ 990) : Pw (m + 1) (a / Flt.ofNat k) := by
  have hk : (1 : ℝ) ≤ k := by exact_mod_cast h1
  exact Pw.div (n := 0) ha (val_nat h2) (by rw [pow_zero, div_one, abs_of_nonneg (by linarith)]; exact hk) (by omega)

theorem Pw.nat {k n : ℕ} (h : k ≤ 2 ^ n) (hn : n ≤ 53) : Pw n (Flt.ofNat k : F) := by
  refine ⟨k, val_nat (h.trans (Nat.pow_le_pow_right (by norm_num) hn)), ?_⟩
  rw [abs_of_nonneg (by positivity)]
  exact_mod_cast h

theorem Pw.int {k : ℤ} {n : ℕ} (h : |k| ≤ 2 ^ n) (hn : n ≤ 53) : Pw n (Flt.ofInt k : F) := by
  refine ⟨k, ?_, by exact_mod_cast h⟩
  show val (Flt.ofInt k : F) = _
  rw [val_ofInt, rnd_int F]
  refine h.trans ?_
  exact_mod_cast Nat.pow_le_pow_right (by norm_num : 0 < 2) hn

theorem Pw.lit {m e n : ℕ} (h : (m : ℝ) / 10 ^ e ≤ 2 ^ n) (hn : n ≤ 990) :
    Pw (n + 1) (Flt.toOfScientific.ofScientific m true e : F) :=
  Pw.of_rnd (val_lit rfl) (by rw [abs_of_nonneg (by positivity)]; exact h) (by omega)

theorem Pw.zero {n : ℕ} : Pw n (0.0 : F) := ⟨0, val_0, by rw [abs_zero]; positivity⟩
theorem Pw.one : Pw 0 (1.0 : F) := ⟨1, val_1, by simp⟩
theorem Pw.two : Pw 1 (2.0 : F) := ⟨2, val_2, by norm_num⟩

theorem Pw.notNaN {a : F} {n : ℕ} (ha : Pw n a) : val a ≠ .nan := by
  obtain ⟨x, h, _⟩ := ha
  rw [h]; simp

theorem Pw.max {a b : F} {n : ℕ} (ha : Pw n a) (hb : Pw n b) : Pw n (Flt.max a b) := by
  obtain ⟨x, h1, h2⟩ := ha
  obtain ⟨y, h3, h4⟩ := hb
  exact ⟨_, h1.max h3, abs_max_le_max_abs_abs.trans (max_le h2 h4)⟩

theorem Pw.min {a b : F} {n : ℕ} (ha : Pw n a) (hb : Pw n b) : Pw n (Flt.min a b) := by
  obtain ⟨x, h1, h2⟩ := ha
  obtain ⟨y, h3, h4⟩ := hb
  refine ⟨_, h1.min h3, ?_⟩
  rcases min_choice x y with e | e <;> rw [e] <;> assumption

/-- Square roots of non-negative numbers. -/
theorem Is.sqrt {a : F} {x : ℝ} (ha : Is a x) (h : 0 ≤ x) : val (Flt.sqrt a) = rnd F (Real.sqrt x) := by
  rw [val_sqrt, ha]
  show (if x < 0 then (Val.nan : Val) else rnd F (Real.sqrt x)) = _
  rw [if_neg (not_lt.mpr h)]

theorem Pw.sqrt {a : F} {x : ℝ} {n : ℕ} (ha : Is a x) (h0 : 0 ≤ x) (h : |x| ≤ 2 ^ n) (hn : n ≤ 990) : Pw (n + 1) (Flt.sqrt a) := by
  refine Pw.of_rnd (ha.sqrt h0) ?_ (by omega)
  rw [abs_of_nonneg (Real.sqrt_nonneg _), Real.sqrt_le_left (by positivity)]
  rw [abs_of_nonneg h0] at h
  have h1 : (1 : ℝ) ≤ 2 ^ n := one_le_pow₀ (by norm_num)
  nlinarith

/-- A rounded non-negative number is not negative. -/
theorem rnd_nonneg {x y : ℝ} (h : rnd F x = .fin y) (hx : 0 ≤ x) : 0 ≤ y := by
  rcases rnd_ge (F := F) (0.0 : F) 0 x val_0 hx with e | ⟨z, e, hz⟩
  · rw [h] at e; cases e
  · rw [h] at e; cases e; exact hz

/-- A rounded number is at least any floating point number below it. -/
theorem rnd_lower {a : F} {c x y : ℝ} (ha : Is a c) (h : rnd F x = .fin y) (hx : c ≤ x) : c ≤ y := by
  rcases rnd_ge (F := F) a c x ha hx with e | ⟨z, e, hz⟩
  · rw [h] at e; cases e
  · rw [h] at e; cases e; exact hz

theorem rnd_upper {a : F} {c x y : ℝ} (ha : Is a c) (h : rnd F x = .fin y) (hx : x ≤ c) : y ≤ c := by
  rcases rnd_le (F := F) a c x ha hx with e | ⟨z, e, hz⟩
  · rw [h] at e; cases e
  · rw [h] at e; cases e; exact hz

/-! ## Accumulation -/

/-- A bound for the `k`-th of a sequence of partial sums of terms up to `S`. -/
noncomputable def grow (S : ℝ) (k : ℕ) : ℝ := k * S + k ^ 2 * S / 2 ^ 50

theorem grow_le {S : ℝ} {k : ℕ} (hS : 0 ≤ S) (hk : k ≤ 2 ^ 50) : grow S k ≤ 2 * k * S := by
  unfold grow
  have h0 : (0 : ℝ) ≤ k := Nat.cast_nonneg _
  have h3 : (k : ℝ) ≤ 2 ^ 50 := by exact_mod_cast hk
  have h4 : (k : ℝ) ^ 2 * S / 2 ^ 50 ≤ k * S := by
    rw [div_le_iff₀ (by positivity)]
    have : (k : ℝ) * k ≤ k * 2 ^ 50 := mul_le_mul_of_nonneg_left h3 h0
    have := mul_le_mul_of_nonneg_right this hS
    linarith
  linarith

theorem grow_mono {S : ℝ} {k l : ℕ} (hS : 0 ≤ S) (h : k ≤ l) : grow S k ≤ grow S l := by
  unfold grow
  have : (k : ℝ) ≤ l := by exact_mod_cast h
  gcongr

theorem grow_nonneg {S : ℝ} {k : ℕ} (hS : 0 ≤ S) : 0 ≤ grow S k := by unfold grow; positivity

/-- One more term. -/
theorem grow_step {x y S : ℝ} {k : ℕ} (hS1 : 1 ≤ S) (hS2 : S ≤ 2 ^ 900) (hk : k + 1 ≤ 2 ^ 50) (hx : |x| ≤ grow S k) (hy : |y| ≤ S) :
    ∃ z, rnd F (x + y) = .fin z ∧ |z| ≤ grow S (k + 1) := by
  have ht : (k : ℝ) + 1 ≤ 2 ^ 50 := by exact_mod_cast hk
  have ht0 : (0 : ℝ) ≤ k := Nat.cast_nonneg k
  have hg := grow_le (S := S) (k := k) (by linarith) (by omega)
  have hxy : |x + y| ≤ 2 * (k + 1) * S := (abs_add_le x y).trans (by nlinarith)
  obtain ⟨z, hz, he⟩ := rnd_acc (F := F) (x + y) (by
    refine hxy.trans ?_
    calc 2 * ((k : ℝ) + 1) * S ≤ 2 * 2 ^ 50 * 2 ^ 900 := by gcongr
      _ = 2 ^ 951 := by rw [mul_assoc, ← pow_add, ← pow_succ']
      _ ≤ 2 ^ 1000 := two_pow_mono (by norm_num))
  refine ⟨z, hz, ?_⟩
  have h1 : |z| ≤ |z - (x + y)| + |x + y| := by have := abs_add_le (z - (x + y)) (x + y); simpa using this
  have h2 := abs_add_le x y
  have h3 : (1 : ℝ) / 2 ^ 1000 ≤ 1 / 2 ^ 52 := tiny_le_pow (by norm_num)
  have h4 : |x + y| / 2 ^ 52 ≤ 2 * (k + 1) * S / 2 ^ 52 := div_le_div_of_nonneg_right hxy (by positivity)
  have h5 : 2 * ((k : ℝ) + 1) * S / 2 ^ 52 + 1 / 2 ^ 52 ≤ (2 * k + 1) * S / 2 ^ 50 := by
    rw [← add_div, div_le_div_iff₀ (by positivity) (by positivity)]
    norm_num
    nlinarith
  unfold grow at hx ⊢
  push_cast
  have h6 : ((k : ℝ) + 1) ^ 2 * S / 2 ^ 50 = (k : ℝ) ^ 2 * S / 2 ^ 50 + (2 * k + 1) * S / 2 ^ 50 := by ring
  linarith

theorem foldl_add_bound {S : ℝ} (hS1 : 1 ≤ S) (hS2 : S ≤ 2 ^ 900) : ∀ (l : List F) (s : F) (k : ℕ), Bd (grow S k) s →
    (∀ a ∈ l, Bd S a) → k + l.length ≤ 2 ^ 50 → Bd (grow S (k + l.length)) (l.foldl (· + ·) s)
  | [], s, k, hs, _, _ => by simpa using hs
  | a :: l, s, k, hs, h, hn => by
    rw [List.length_cons] at hn ⊢
    obtain ⟨x, hx1, hx2⟩ := hs
    obtain ⟨y, hy1, hy2⟩ := h a (by simp)
    obtain ⟨z, hz1, hz2⟩ := grow_step (F := F) hS1 hS2 (by omega) hx2 hy2
    have := foldl_add_bound hS1 hS2 l (s + a) (k + 1) ⟨z, (Is.add hx1 hy1).trans hz1, hz2⟩ (fun b hb => h b (by simp [hb])) (by omega)
    rw [List.foldl_cons]
    rw [show k + (l.length + 1) = k + 1 + l.length by omega]
    exact this

theorem iterSum_bound {S : ℝ} (hS1 : 1 ≤ S) (hS2 : S ≤ 2 ^ 900) {l : List F} (h : ∀ a ∈ l, Bd S a) (hn : l.length ≤ 2 ^ 50) :
    Bd (2 * l.length * S) (Flt.iterSum l) := by
  obtain ⟨y, h1, h2⟩ := foldl_add_bound hS1 hS2 l (0.0 : F) 0 ⟨0, val_0, by simp [grow]⟩ h (by omega)
  rw [Nat.zero_add] at h2
  exact ⟨y, h1, h2.trans (grow_le (by linarith) hn)⟩

theorem Pw.iterSum {n k : ℕ} {l : List F} (h : ∀ a ∈ l, Pw n a) (hl : l.length ≤ 2 ^ k) (hk : k ≤ 50) (hn : n ≤ 900) :
    Pw (n + k + 1) (Flt.iterSum l) := by
  obtain ⟨y, h1, h2⟩ := iterSum_bound (S := 2 ^ n) (one_le_pow₀ (by norm_num)) (two_pow_mono hn) h
    (hl.trans (Nat.pow_le_pow_right (by norm_num) hk))
  refine ⟨y, h1, h2.trans ?_⟩
  have : (l.length : ℝ) ≤ 2 ^ k := by exact_mod_cast hl
  rw [pow_succ, pow_add]
  have h3 : (0 : ℝ) < 2 ^ n := by positivity
  nlinarith

theorem Pw.sum [Libm F] {n k : ℕ} {l : List F} (h : ∀ a ∈ l, Pw n a) (hl : l.length ≤ 2 ^ k) (hk : k ≤ 50) (hn : n ≤ 900) :
    Pw (n + k + 1) (Flt.sum l) := by
  obtain ⟨y, h1, h2⟩ := Libm.sum_bound l (2 ^ n) (one_le_pow₀ (by norm_num)) (two_pow_mono hn) h
    (hl.trans (Nat.pow_le_pow_right (by norm_num) hk))
  refine ⟨y, h1, h2.trans ?_⟩
  have : (l.length : ℝ) ≤ 2 ^ k := by exact_mod_cast hl
  rw [pow_succ, pow_add]
  have h3 : (0 : ℝ) < 2 ^ n := by positivity
  nlinarith

/-! ## A very negative number -/

theorem big_exact : Is (Flt.ofNat (2 ^ 910) : F) (2 ^ 910) := by
  show val _ = _
  rw [val_ofNat]
  have := rnd_dyadic (F := F) (2 ^ 10) 900 (by norm_num) (by norm_num) (by norm_num)
  have e : (((2 : ℤ) ^ 10 : ℤ) : ℝ) * 2 ^ (900 : ℤ) = 2 ^ 910 := by
    rw [show (2 : ℝ) ^ (900 : ℤ) = 2 ^ 900 from zpow_natCast (2 : ℝ) 900, Int.cast_pow, Int.cast_ofNat, ← pow_add]
  rw [e] at this
  have e2 : ((2 ^ 910 : ℕ) : ℝ) = 2 ^ 910 := by rw [Nat.cast_pow]; rfl
  rw [e2]
  exact this

theorem minVal_below : ∃ M : ℝ, Is (Flt.minVal : F) M ∧ M ≤ -2 ^ 1000 := by
  refine ⟨_, val_minVal, ?_⟩
  have h1 : (2 : ℝ) ^ 1024 = 2 ^ 24 * 2 ^ 1000 := by rw [← pow_add]
  have h2 : (2 : ℝ) ^ 971 ≤ 2 ^ 1000 := two_pow_mono (by norm_num)
  have h3 : (0 : ℝ) ≤ 2 ^ 1000 := by positivity
  rw [h1]
  clear h1
  generalize (2 : ℝ) ^ 1000 = A at *
  generalize (2 : ℝ) ^ 971 = B at *
  norm_num
  linarith

/-- Adding `f64::MIN` to an ordinary number gives something below every ordinary number. -/
theorem add_minVal_lt {s t : F} {x y : ℝ} (hs : Is s x) (hx : |x| ≤ 2 ^ 905) (ht : Is t y) (hy : |y| ≤ 2 ^ 905) :
    Flt.lt (s + Flt.minVal) t = true := by
  obtain ⟨M, hM, hM2⟩ := minVal_below (F := F)
  have hsum : val (s + Flt.minVal) = rnd F (x + M) := Is.add hs hM
  have hneg : Is (-(Flt.ofNat (2 ^ 910) : F)) (-2 ^ 910) := Is.neg big_exact
  have h1 : (2 : ℝ) ^ 905 < 2 ^ 910 := pow_lt_pow_right₀ (by norm_num) (by norm_num)
  have h2 : (2 : ℝ) ^ 905 + 2 ^ 910 ≤ 2 ^ 1000 := by
    have a1 : (2 : ℝ) ^ 911 ≤ 2 ^ 1000 := two_pow_mono (by norm_num)
    have a2 : (2 : ℝ) ^ 911 = 2 ^ 910 * 2 := pow_succ _ _
    generalize (2 : ℝ) ^ 911 = A at *
    generalize (2 : ℝ) ^ 910 = B at *
    generalize (2 : ℝ) ^ 905 = C at *
    linarith
  have hx' := abs_le.mp hx
  have hy' := abs_le.mp hy
  have h3 : x + M ≤ -2 ^ 910 := by
    clear hneg hsum
    generalize (2 : ℝ) ^ 910 = B at *
    generalize (2 : ℝ) ^ 905 = C at *
    generalize (2 : ℝ) ^ 1000 = D at *
    linarith [hx'.2]
  rcases rnd_le (F := F) _ _ (x + M) hneg h3 with e | ⟨w, e, hw⟩
  · rw [lt_val, hsum, e, ht]; rfl
  · rw [Is.lt (show Is (s + Flt.minVal) w from hsum.trans e) ht, decide_eq_true]
    clear hneg hsum
    generalize (2 : ℝ) ^ 910 = B at *
    generalize (2 : ℝ) ^ 905 = C at *
    linarith [hy'.1]

end Visqol
