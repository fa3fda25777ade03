import Verif.Lemmas.Prepare
import Verif.Lemmas.Extremum
import Verif.Spec.Decibel

/-! # C23: preparation of the spectrograms, in exact arithmetic -/

set_option linter.unusedSectionVars false

namespace Visqol
open Spec

theorem sampleToDb_real (x : ℝ) : sampleToDb x = decibels x := by
  unfold sampleToDb decibels
  simp only [real_eq, real_sci, real_abs, real_log10]
  norm_num

theorem dbAt_real (m : Mat ℝ) (i j : Nat) : dbAt m i j = raised (m.at i j) := by
  unfold dbAt raised
  rw [sampleToDb_real, real_max]
  norm_num [real_sci]

theorem maxList {n : Nat} {g : Nat → ℝ} {p : ℝ} (h : extremum .gt ((List.range n).map g) = some p) :
    (∃ i < n, p = g i) ∧ ∀ i < n, g i ≤ p := by
  have hne : (List.range n).map g ≠ [] := by
    intro he; rw [he] at h; cases h
  obtain ⟨m, h1, h2, h3⟩ := extremum_max hne
  rw [h] at h1; cases h1
  refine ⟨?_, fun i hi => h3 _ (List.mem_map.mpr ⟨i, List.mem_range.mpr hi, rfl⟩)⟩
  obtain ⟨i, hi, rfl⟩ := List.mem_map.mp h2
  exact ⟨i, List.mem_range.mp hi, rfl⟩

theorem minMat {n c : Nat} {g : Nat → Nat → ℝ} {p : ℝ} (h : extremum .lt (Mat.ofFn n c g).toList = some p) :
    (∃ i < n, ∃ j < c, p = g i j) ∧ ∀ i < n, ∀ j < c, p ≤ g i j := by
  have hne : (Mat.ofFn n c g).toList ≠ [] := by
    intro he; rw [he] at h; cases h
  obtain ⟨m, h1, h2, h3⟩ := extremum_min hne
  rw [h] at h1; cases h1
  exact ⟨Mat.mem_ofFn_toList.mp h2, fun i hi j hj => h3 _ (Mat.mem_ofFn_toList.mpr ⟨i, hi, j, hj, rfl⟩)⟩

/-- C23: the exact outcome of preparation. There is a peak per common frame and an overall lowest value such that every
entry is its decibel value, raised to -45 and (in common frames) to 45 below the peak, minus the lowest. -/
theorem C23_formula {ref deg a b : Mat ℝ} (wr : ref.WF) (wd : deg.WF) (h : prepareSpectrograms ref deg = .ok (a, b)) :
    a.WF ∧ b.WF ∧ a.nrows = ref.nrows ∧ a.ncols = ref.ncols ∧ b.nrows = deg.nrows ∧ b.ncols = deg.ncols ∧
    ∃ (peak : ℕ → ℝ) (lowest : ℝ) (fr fd : ℕ → ℕ → ℝ),
      (∀ j, j < ref.ncols → j < deg.ncols → IsPeak ref.nrows deg.nrows ref.at deg.at j (peak j)) ∧
      (∀ i j, fr i j = if j < deg.ncols ∧ j < ref.ncols then max (peak j - 45) (raised (ref.at i j)) else raised (ref.at i j)) ∧
      (∀ i j, fd i j = if j < deg.ncols ∧ j < ref.ncols then max (peak j - 45) (raised (deg.at i j)) else raised (deg.at i j)) ∧
      IsLowest ref.nrows ref.ncols deg.nrows deg.ncols fr fd lowest ∧
      (∀ i < ref.nrows, ∀ j < ref.ncols, a.at i j = fr i j - lowest) ∧
      (∀ i < deg.nrows, ∀ j < deg.ncols, b.at i j = fd i j - lowest) := by
  obtain ⟨⟨floors, lowA, lowB, count, peaks, minA, minB, hA, hB⟩⟩ := prepare_ok wr wd h
  refine ⟨hA ▸ Mat.ofFn_wf _ _ _, hB ▸ Mat.ofFn_wf _ _ _, by rw [hA]; simp, by rw [hA]; simp, by rw [hB]; simp, by rw [hB]; simp, ?_⟩
  have hfl : ∀ (m : Mat ℝ) (i j : Nat), flooredAt floors (dbAt m) i j =
      if j < deg.ncols ∧ j < ref.ncols then max (floors.getD j 0) (raised (m.at i j)) else raised (m.at i j) := by
    intro m i j
    unfold flooredAt
    by_cases hj : j < floors.length
    · rw [if_pos (by omega), List.getD_eq_getElem?_getD, List.getElem?_eq_getElem hj]
      simp only [Option.getD_some, real_max, dbAt_real]
    · rw [if_neg (by omega), List.getElem?_eq_none (by omega)]
      simp only [dbAt_real]
  refine ⟨fun j => floors.getD j 0 + 45, min lowA lowB, flooredAt floors (dbAt ref), flooredAt floors (dbAt deg),
    ?_, ?_, ?_, ?_, ?_, ?_⟩
  · intro j hr hd
    have hj : j < floors.length := by omega
    obtain ⟨pa, pb, h1, h2, h3⟩ := peaks j _ (List.getElem?_eq_getElem hj)
    obtain ⟨⟨i1, hi1, e1⟩, m1⟩ := maxList h1
    obtain ⟨⟨i2, hi2, e2⟩, m2⟩ := maxList h2
    simp only [dbAt_real] at e1 e2 m1 m2
    have hp : floors.getD j 0 + 45 = max pa pb := by
      rw [List.getD_eq_getElem?_getD, List.getElem?_eq_getElem hj, Option.getD_some, h3, real_max]
      simp only [real_sci]
      norm_num
    show IsPeak _ _ _ _ _ (floors.getD j 0 + 45)
    rw [hp]
    refine ⟨?_, fun i hi => (m1 i hi).trans (le_max_left _ _), fun i hi => (m2 i hi).trans (le_max_right _ _)⟩
    rcases max_choice pa pb with hc | hc <;> rw [hc]
    · exact .inl ⟨i1, hi1, e1⟩
    · exact .inr ⟨i2, hi2, e2⟩
  · intro i j
    rw [hfl, add_sub_cancel_right]
  · intro i j
    rw [hfl, add_sub_cancel_right]
  · obtain ⟨⟨i1, hi1, j1, hj1, e1⟩, m1⟩ := minMat minA
    obtain ⟨⟨i2, hi2, j2, hj2, e2⟩, m2⟩ := minMat minB
    refine ⟨?_, fun i hi j hj => (min_le_left _ _).trans (m1 i hi j hj), fun i hi j hj => (min_le_right _ _).trans (m2 i hi j hj)⟩
    rcases min_choice lowA lowB with hc | hc <;> rw [hc]
    · exact .inl ⟨i1, hi1, j1, hj1, e1⟩
    · exact .inr ⟨i2, hi2, j2, hj2, e2⟩
  · intro i hi j hj
    rw [hA, Mat.ofFn_at _ _ _ _ _ hi hj, real_min]
  · intro i hi j hj
    rw [hB, Mat.ofFn_at _ _ _ _ _ hi hj, real_min]

/-- C23: nothing is negative, the smallest entry over both is 0, and in a common frame no entry lies more than 45 below
any entry of either spectrogram. -/
theorem C23_floored {ref deg a b : Mat ℝ} (wr : ref.WF) (wd : deg.WF) (h : prepareSpectrograms ref deg = .ok (a, b)) :
    (∀ i < a.nrows, ∀ j < a.ncols, 0 ≤ a.at i j) ∧ (∀ i < b.nrows, ∀ j < b.ncols, 0 ≤ b.at i j) ∧
    ((∃ i < a.nrows, ∃ j < a.ncols, a.at i j = 0) ∨ ∃ i < b.nrows, ∃ j < b.ncols, b.at i j = 0) ∧
    ∀ j, j < a.ncols → j < b.ncols → ∀ x y,
      ((∃ i < a.nrows, x = a.at i j) ∨ ∃ i < b.nrows, x = b.at i j) →
      ((∃ i < a.nrows, y = a.at i j) ∨ ∃ i < b.nrows, y = b.at i j) → y - 45 ≤ x := by
  obtain ⟨_, _, h1, h2, h3, h4, peak, low, fr, fd, hp, hr, hd, ⟨l1, l2, l3⟩, ha, hb⟩ := C23_formula wr wd h
  rw [h1, h2, h3, h4]
  refine ⟨?_, ?_, ?_, ?_⟩
  · intro i hi j hj
    rw [ha i hi j hj]
    linarith [l2 i hi j hj]
  · intro i hi j hj
    rw [hb i hi j hj]
    linarith [l3 i hi j hj]
  · rcases l1 with ⟨i, hi, j, hj, e⟩ | ⟨i, hi, j, hj, e⟩
    · exact .inl ⟨i, hi, j, hj, by rw [ha i hi j hj, e, sub_self]⟩
    · exact .inr ⟨i, hi, j, hj, by rw [hb i hi j hj, e, sub_self]⟩
  · intro j hjr hjd x y hx hy
    obtain ⟨_, p1, p2⟩ := hp j hjr hjd
    have key : peak j - 45 - low ≤ x := by
      rcases hx with ⟨i, hi, rfl⟩ | ⟨i, hi, rfl⟩
      · rw [ha i hi j hjr, hr, if_pos ⟨hjd, hjr⟩]
        linarith [le_max_left (peak j - 45) (raised (ref.at i j))]
      · rw [hb i hi j hjd, hd, if_pos ⟨hjd, hjr⟩]
        linarith [le_max_left (peak j - 45) (raised (deg.at i j))]
    have key2 : y ≤ peak j - low := by
      rcases hy with ⟨i, hi, rfl⟩ | ⟨i, hi, rfl⟩
      · rw [ha i hi j hjr, hr, if_pos ⟨hjd, hjr⟩]
        have := max_le (show peak j - 45 ≤ peak j by linarith) (p1 i hi)
        linarith
      · rw [hb i hi j hjd, hd, if_pos ⟨hjd, hjr⟩]
        have := max_le (show peak j - 45 ≤ peak j by linarith) (p2 i hi)
        linarith
    linarith

/-- C23: preparation of two non-empty spectrograms succeeds. -/
theorem C23_total {ref deg : Mat ℝ} (wr : ref.WF) (wd : deg.WF) (hr : 0 < ref.nrows) (hrc : 0 < ref.ncols)
    (hd : 0 < deg.nrows) (hdc : 0 < deg.ncols) : ∃ a b, prepareSpectrograms ref deg = .ok (a, b) := by
  have hx : ∀ (n : Nat) (g : Nat → ℝ), 0 < n → (extremum .gt ((List.range n).map g)).isSome := by
    intro n g hn
    obtain ⟨m, h, _⟩ := extremum_max (l := (List.range n).map g) (by
      intro he
      have := congrArg List.length he
      simp only [List.length_map, List.length_range, List.length_nil] at this
      omega)
    rw [h]; rfl
  have hy : ∀ (n c : Nat) (g : Nat → Nat → ℝ), 0 < n → 0 < c → (extremum .lt (Mat.ofFn n c g).toList).isSome := by
    intro n c g hn hc
    obtain ⟨m, h, _⟩ := extremum_min (l := (Mat.ofFn n c g).toList) (by
      apply List.ne_nil_of_mem (a := g 0 0)
      exact Mat.mem_ofFn_toList.mpr ⟨0, hn, 0, hc, rfl⟩)
    rw [h]; rfl
  exact prepare_total wr wd (fun j _ _ => ⟨hx _ _ hr, hx _ _ hd⟩) (fun fl _ _ => ⟨hy _ _ _ hr hrc, hy _ _ _ hd hdc⟩)

/-- A concrete pair to which the theorems apply: different sizes, a silent entry, a negative entry. -/
example : ∃ a b, prepareSpectrograms (⟨2, [[1, 0], [100, -3]]⟩ : Mat ℝ) ⟨3, [[1, 2, 3]]⟩ = .ok (a, b) := by
  apply C23_total
  · intro r hr; simp at hr; rcases hr with rfl | rfl <;> rfl
  · intro r hr; simp at hr; subst hr; rfl
  all_goals simp [Mat.nrows]

end Visqol
