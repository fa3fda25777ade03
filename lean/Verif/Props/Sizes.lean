import Verif.Lemmas.Basic
import Verif.Model.Audio

/-! # C41: FFT sizes -/

namespace Visqol

theorem fill_le (x s : Nat) : x ≤ x ||| (x >>> s) := Nat.left_le_or

theorem fill_lt {x k : Nat} (s : Nat) (h : x < 2 ^ k) : x ||| (x >>> s) < 2 ^ k :=
  Nat.or_lt_two_pow h (lt_of_le_of_lt (Nat.shiftRight_le x s) h)
where
  lt_of_le_of_lt {a b c : Nat} (h1 : a ≤ b) (h2 : b < c) : a < c := Nat.lt_of_le_of_lt h1 h2

/-- The smeared value, before the final increment. -/
def smear (x : Nat) : Nat :=
  let x := x ||| (x >>> 1)
  let x := x ||| (x >>> 2)
  let x := x ||| (x >>> 4)
  let x := x ||| (x >>> 1)
  x ||| (x >>> 16)

theorem smear_ge (x : Nat) : x ≤ smear x := by
  unfold smear
  exact Nat.le_trans (fill_le x 1) (Nat.le_trans (fill_le _ 2) (Nat.le_trans (fill_le _ 4)
    (Nat.le_trans (fill_le _ 1) (fill_le _ 16))))

theorem smear_lt {x k : Nat} (h : x < 2 ^ k) : smear x < 2 ^ k :=
  fill_lt 16 (fill_lt 1 (fill_lt 4 (fill_lt 2 (fill_lt 1 h))))

theorem nextPowTwo_eq (p : Profile) {n : Nat} (h1 : 1 ≤ n) (h2 : n ≤ 2 ^ 63) :
    nextPowTwo p n = .ok (smear (n - 1) + 1) := by
  unfold nextPowTwo
  rw [usub_of_le h1]
  simp only [ok_bind]
  have hs : smear (n - 1) < 2 ^ 63 := smear_lt (by omega)
  exact uadd_of_lt (show smear (n - 1) + 1 < usizeMod by
    have : (2 : Nat) ^ 63 < usizeMod := by decide
    omega)

/-- C41: for `1 ≤ n ≤ 2^63` the result exists, is at least `n`, and is at most every power of two that is at least `n`. -/
theorem C41_next_pow_two_bounds (p : Profile) (n : Nat) (h1 : 1 ≤ n) (h2 : n ≤ 2 ^ 63) :
    ∃ r, nextPowTwo p n = .ok r ∧ n ≤ r ∧ ∀ k, n ≤ 2 ^ k → r ≤ 2 ^ k := by
  refine ⟨_, nextPowTwo_eq p h1 h2, ?_, ?_⟩
  · have := smear_ge (n - 1); omega
  · intro k hk
    have : smear (n - 1) < 2 ^ k := smear_lt (by omega)
    omega

theorem odd_or {x y : Nat} (h : x % 2 = 1) : (x ||| y) % 2 = 1 := by
  have := Nat.or_mod_two_pow (a := x) (b := y) (n := 1)
  rw [Nat.pow_one, h] at this
  rw [this]
  rcases Nat.mod_two_eq_zero_or_one y with e | e <;> rw [e] <;> rfl

/-- C41: even sizes are padded to even sizes. -/
theorem C41_even (p : Profile) (n : Nat) (h1 : 1 ≤ n) (h2 : n ≤ 2 ^ 63) (he : n % 2 = 0) : ∃ r, nextPowTwo p n = .ok r ∧ r % 2 = 0 := by
  refine ⟨_, nextPowTwo_eq p h1 h2, ?_⟩
  have : smear (n - 1) % 2 = 1 := odd_or (odd_or (odd_or (odd_or (odd_or (by omega)))))
  omega

/-- C41: exact on powers of two. -/
theorem C41_exact_on_powers (p : Profile) (k : Nat) (hk : k ≤ 63) : nextPowTwo p (2 ^ k) = .ok (2 ^ k) := by
  obtain ⟨r, hr, h1, h2⟩ := C41_next_pow_two_bounds p (2 ^ k) Nat.one_le_two_pow
    (Nat.pow_le_pow_right (by decide) hk)
  rw [hr]
  exact congrArg _ (Nat.le_antisymm (h2 k (Nat.le_refl _)) h1)

/-- Below 512 the smearing fills all lower bits: the whole finite range is checked. -/
theorem smear_small : ∀ x < 512, ∀ k < 10, x < 2 ^ k → 2 ^ k ≤ 2 * x → smear x + 1 = 2 ^ k := by
  decide +kernel

/-- C41: for every `n ≤ 512` the result is the smallest power of two that is at least `n`. -/
theorem C41_exact_small (p : Profile) (n k : Nat) (h1 : 2 ≤ n) (h2 : n ≤ 512) (hk : n ≤ 2 ^ k) (hk' : 2 ^ k < 2 * n) :
    nextPowTwo p n = .ok (2 ^ k) := by
  rw [nextPowTwo_eq p (by omega) (by omega)]
  have hk10 : k < 10 := by
    rcases Nat.lt_or_ge k 10 with h | h
    · exact h
    · have := Nat.pow_le_pow_right (n := 2) (by decide) h
      omega
  rw [smear_small (n - 1) (by omega) k hk10 (by omega)]
  have : 2 ^ k ≠ 2 * n - 1 := by
    intro h
    cases k with
    | zero => omega
    | succ k => rw [Nat.pow_succ] at h; omega
  omega

/-- C41, the defect: 513 and 1025 are sent to numbers that are not powers of two. -/
theorem C41_not_a_power (p : Profile) :
    nextPowTwo p 513 = .ok 1023 ∧ nextPowTwo p 1025 = .ok 2045 ∧ (∀ k, 1023 ≠ 2 ^ k) ∧ (∀ k, 2045 ≠ 2 ^ k) := by
  refine ⟨?_, ?_, ?_, ?_⟩
  · rw [nextPowTwo_eq p (by decide) (by decide)]; rfl
  · rw [nextPowTwo_eq p (by decide) (by decide)]; rfl
  · intro k h
    cases k with
    | zero => omega
    | succ k => rw [Nat.pow_succ] at h; omega
  · intro k h
    cases k with
    | zero => omega
    | succ k => rw [Nat.pow_succ] at h; omega

example : ∃ n k : Nat, 2 ≤ n ∧ n ≤ 512 ∧ n ≤ 2 ^ k ∧ 2 ^ k < 2 * n ∧ n ≠ 2 ^ k := ⟨300, 9, by decide⟩
example : ∃ n, 1 ≤ n ∧ n ≤ 2 ^ 63 ∧ 512 < n ∧ nextPowTwo .checked n = .ok 65536 := ⟨65536, by decide, by decide, by decide, rfl⟩

end Visqol
