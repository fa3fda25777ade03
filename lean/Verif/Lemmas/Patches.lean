import Verif.Lemmas.Basic
import Verif.Model.Patch
import Mathlib.Tactic.ByContra
import Mathlib.Order.Defs.LinearOrder

/-! # Lemmas about patch selection -/

set_option linter.unusedSectionVars false

namespace Visqol
variable {F : Type} [Flt F]

theorem selectPatches_mem {n : Nat} : ∀ {base : Nat} {cs : List (List Bool)} {i : Nat},
    i ∈ selectPatches n base cs ↔ ∃ k c, cs[k]? = some c ∧ i = base + n * k ∧ true ∈ c
  | base, [], i => by simp [selectPatches]
  | base, c :: cs, i => by
    have hc : 1 ≤ c.countP (· == true) ↔ true ∈ c := by
      rw [Nat.one_le_iff_ne_zero, Ne, List.countP_eq_zero]
      constructor
      · intro h
        by_contra hn
        exact h fun a ha => by
          cases a with
          | true => exact absurd ha hn
          | false => simp
      · intro h hall
        exact absurd (hall true h) (by simp)
    have ih := @selectPatches_mem n (base + n) cs i
    have key : (∃ k d, (c :: cs)[k]? = some d ∧ i = base + n * k ∧ true ∈ d) ↔
        (i = base ∧ true ∈ c) ∨ ∃ k d, cs[k]? = some d ∧ i = base + n + n * k ∧ true ∈ d := by
      constructor
      · rintro ⟨k, d, h1, h2, h3⟩
        cases k with
        | zero => left; simp at h1; subst h1; exact ⟨by simpa using h2, h3⟩
        | succ k => right; exact ⟨k, d, by simpa using h1, by rw [h2, Nat.mul_succ]; omega, h3⟩
      · rintro (⟨h1, h2⟩ | ⟨k, d, h1, h2, h3⟩)
        · exact ⟨0, c, rfl, by simpa using h1, h2⟩
        · exact ⟨k + 1, d, by simpa using h1, by rw [h2, Nat.mul_succ]; omega, h3⟩
    rw [key]
    unfold selectPatches
    split
    · rename_i h
      rw [List.mem_cons, ih]
      simp [hc.mp h]
    · rename_i h
      rw [ih]
      have : true ∉ c := fun hh => h (hc.mpr hh)
      simp [this]

theorem selectPatches_sublist {n : Nat} : ∀ {base : Nat} {cs : List (List Bool)},
    (selectPatches n base cs).Sublist ((List.range cs.length).map fun k => base + n * k)
  | base, [] => by simp [selectPatches]
  | base, c :: cs => by
    have ih := @selectPatches_sublist n (base + n) cs
    have e : (List.range (c :: cs).length).map (fun k => base + n * k) =
        base :: (List.range cs.length).map fun k => base + n + n * k := by
      rw [List.length_cons, List.range_succ_eq_map, List.map_cons, List.map_map]
      congr 1
      apply List.map_congr_left
      intro k _
      simp only [Function.comp]
      rw [Nat.succ_eq_add_one, Nat.mul_succ]; omega
    rw [e]
    unfold selectPatches
    split
    · exact ih.cons_cons _
    · exact ih.cons _

theorem chunksIter_get {α : Type} {n : Nat} (hn : 0 < n) : ∀ {fuel : Nat} {l : List α} {k : Nat}, l.length ≤ fuel →
    (chunksIter n fuel l)[k]? = if k * n < l.length then some ((l.drop (k * n)).take n) else none
  | 0, l, k, h => by
    have : l = [] := by simpa using h
    subst this; simp [chunksIter]
  | fuel + 1, [], k, _ => by simp [chunksIter]
  | fuel + 1, a :: l, 0, _ => by simp [chunksIter]
  | fuel + 1, a :: l, k + 1, h => by
    unfold chunksIter
    rw [List.getElem?_cons_succ, chunksIter_get hn (by simp at h ⊢; omega), List.length_drop, List.drop_drop]
    have e : n + k * n = (k + 1) * n := by rw [Nat.succ_mul]; omega
    rw [e]
    have : (k * n < (a :: l).length - n) ↔ ((k + 1) * n < (a :: l).length) := by rw [Nat.succ_mul]; omega
    simp only [this]

theorem chunksIter_length {α : Type} {n : Nat} (hn : 0 < n) {fuel : Nat} {l : List α} (h : l.length ≤ fuel) :
    (chunksIter n fuel l).length = (l.length + (n - 1)) / n := by
  apply Nat.le_antisymm
  · by_contra hc
    have hlt := Nat.lt_of_not_le hc
    have := chunksIter_get (k := (l.length + (n - 1)) / n) hn h
    rw [List.getElem?_eq_getElem hlt, if_neg] at this
    · cases this
    · have h1 := Nat.div_add_mod (l.length + (n - 1)) n
      have h2 := Nat.mod_lt (l.length + (n - 1)) hn
      rw [Nat.mul_comm] at h1
      omega
  · by_contra hc
    have hc := Nat.lt_of_not_le hc
    have hpos : 0 < (l.length + (n - 1)) / n := by omega
    have := chunksIter_get (k := (l.length + (n - 1)) / n - 1) hn h
    rw [List.getElem?_eq_none (by omega), if_pos] at this
    · cases this
    · have h1 := Nat.div_mul_le_self (l.length + (n - 1)) n
      rw [Nat.sub_mul]
      have : n ≤ (l.length + (n - 1)) / n * n := Nat.le_mul_of_pos_left n hpos
      omega

theorem vadResults_length (flags : List Bool) : (vadResults flags).length = max 2 flags.length := by
  simp only [vadResults, List.length_append, List.length_replicate, List.length_map, List.length_range]; omega

theorem chunksOf_length {α : Type} (c : Nat) : ∀ (n : Nat) (l : List α), (chunksOf c n l).length = n
  | 0, _ => rfl
  | n + 1, l => by rw [chunksOf, List.length_cons, chunksOf_length]

theorem chunksOf_get {α : Type} (c : Nat) : ∀ (n : Nat) (l : List α) (i : Nat), i < n →
    (chunksOf c n l)[i]? = some ((l.drop (i * c)).take c)
  | 0, _, i, h => by omega
  | n + 1, l, 0, _ => by simp [chunksOf]
  | n + 1, l, i + 1, h => by
    rw [chunksOf, List.getElem?_cons_succ, chunksOf_get c n _ i (by omega), List.drop_drop]
    congr 3
    rw [Nat.succ_mul]; omega

end Visqol
