import Verif.Num.Real

/-! # Largest and smallest element, in exact arithmetic -/

namespace Visqol

/-- One step of `extremum`. -/
noncomputable def extStep (o : Ordering) (acc : Option ℝ) (x : ℝ) : Option ℝ := do
  let m ← acc
  let c ← Flt.partialCmp x m
  some (if c = o then x else m)

theorem foldl_gt (l : List ℝ) : ∀ a : ℝ, ∃ m, l.foldl (extStep .gt) (some a) = some m ∧ (m = a ∨ m ∈ l) ∧ a ≤ m ∧ ∀ x ∈ l, x ≤ m := by
  induction l with
  | nil => intro a; exact ⟨a, rfl, .inl rfl, le_refl _, by simp⟩
  | cons x l ih =>
    intro a
    by_cases hx : a < x
    · obtain ⟨m, h1, h2, h3, h4⟩ := ih x
      refine ⟨m, ?_, ?_, hx.le.trans h3, ?_⟩
      · rw [List.foldl_cons]
        have e : extStep .gt (some a) x = some x := by
          simp only [extStep, Option.bind_eq_bind, Option.bind_some, real_partialCmp, if_neg (not_lt.mpr hx.le), if_pos hx, if_true]
        rw [e, h1]
      · right; rcases h2 with rfl | h2 <;> simp [*]
      · intro y hy
        rcases List.mem_cons.mp hy with rfl | hy
        · exact h3
        · exact h4 y hy
    · obtain ⟨m, h1, h2, h3, h4⟩ := ih a
      refine ⟨m, ?_, ?_, h3, ?_⟩
      · rw [List.foldl_cons]
        have : (if (if x < a then Ordering.lt else if a < x then Ordering.gt else Ordering.eq) = Ordering.gt then x else a) = a := by
          rw [if_neg hx]; split <;> simp
        have e : extStep .gt (some a) x = some a := by
          simp only [extStep, Option.bind_eq_bind, Option.bind_some, real_partialCmp, this]
        rw [e, h1]
      · rcases h2 with rfl | h2 <;> simp [*]
      · intro y hy
        rcases List.mem_cons.mp hy with rfl | hy
        · exact (not_lt.mp hx).trans h3
        · exact h4 y hy

/-- The maximum of a non-empty list of reals. -/
theorem extremum_max {l : List ℝ} (h : l ≠ []) : ∃ m, extremum .gt l = some m ∧ m ∈ l ∧ ∀ x ∈ l, x ≤ m := by
  cases l with
  | nil => exact absurd rfl h
  | cons a l =>
    obtain ⟨m, h1, h2, h3, h4⟩ := foldl_gt (a :: l) a
    refine ⟨m, h1, ?_, h4⟩
    rcases h2 with rfl | h2
    · simp
    · exact h2

theorem foldl_lt (l : List ℝ) : ∀ a : ℝ, ∃ m, l.foldl (extStep .lt) (some a) = some m ∧ (m = a ∨ m ∈ l) ∧ m ≤ a ∧ ∀ x ∈ l, m ≤ x := by
  induction l with
  | nil => intro a; exact ⟨a, rfl, .inl rfl, le_refl _, by simp⟩
  | cons x l ih =>
    intro a
    by_cases hx : x < a
    · obtain ⟨m, h1, h2, h3, h4⟩ := ih x
      refine ⟨m, ?_, ?_, h3.trans hx.le, ?_⟩
      · rw [List.foldl_cons]
        have e : extStep .lt (some a) x = some x := by
          simp only [extStep, Option.bind_eq_bind, Option.bind_some, real_partialCmp, if_pos hx, if_true]
        rw [e, h1]
      · right; rcases h2 with rfl | h2 <;> simp [*]
      · intro y hy
        rcases List.mem_cons.mp hy with rfl | hy
        · exact h3
        · exact h4 y hy
    · obtain ⟨m, h1, h2, h3, h4⟩ := ih a
      refine ⟨m, ?_, ?_, h3, ?_⟩
      · rw [List.foldl_cons]
        have : (if (if x < a then Ordering.lt else if a < x then Ordering.gt else Ordering.eq) = Ordering.lt then x else a) = a := by
          rw [if_neg hx]; split <;> simp
        have e : extStep .lt (some a) x = some a := by
          simp only [extStep, Option.bind_eq_bind, Option.bind_some, real_partialCmp, this]
        rw [e, h1]
      · rcases h2 with rfl | h2 <;> simp [*]
      · intro y hy
        rcases List.mem_cons.mp hy with rfl | hy
        · exact h3.trans (not_lt.mp hx)
        · exact h4 y hy

/-- The minimum of a non-empty list of reals. -/
theorem extremum_min {l : List ℝ} (h : l ≠ []) : ∃ m, extremum .lt l = some m ∧ m ∈ l ∧ ∀ x ∈ l, m ≤ x := by
  cases l with
  | nil => exact absurd rfl h
  | cons a l =>
    obtain ⟨m, h1, h2, h3, h4⟩ := foldl_lt (a :: l) a
    refine ⟨m, h1, ?_, h4⟩
    rcases h2 with rfl | h2
    · simp
    · exact h2

end Visqol
