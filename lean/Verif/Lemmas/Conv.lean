import Verif.Lemmas.Basic
import Verif.Model.Nsim
import Verif.Spec.Grid

/-! # The padded matrix and the convolution loop -/

set_option linter.unusedSectionVars false

namespace Visqol
variable {F : Type} [Flt F]

theorem Mat.at_eq_of_get {m : Mat F} {i j : Nat} {r : List F} {x : F} (hr : m.rows[i]? = some r)
    (hx : r[j]? = some x) : m.at i j = x := by
  simp [Mat.at, List.getD, hr, hx]

theorem Mat.rows_getElem? {m : Mat F} {i : Nat} (h : i < m.nrows) : ∃ r, m.rows[i]? = some r ∧ r ∈ m.rows := by
  have h' : i < m.rows.length := h
  exact ⟨m.rows[i], List.getElem?_eq_getElem h', List.getElem_mem h'⟩

theorem Mat.WF.at_get {m : Mat F} (wf : m.WF) {i j : Nat} (hi : i < m.nrows) (hj : j < m.ncols) :
    ∃ r, m.rows[i]? = some r ∧ r.length = m.ncols ∧ r[j]? = some (m.at i j) := by
  obtain ⟨r, hr, hm⟩ := Mat.rows_getElem? hi
  have hl := wf r hm
  have hj' : j < r.length := by omega
  exact ⟨r, hr, hl, by rw [Mat.at_eq_of_get hr (List.getElem?_eq_getElem hj')]; exact List.getElem?_eq_getElem hj'⟩

/-- Row-major indexing of a flattened well-formed matrix. -/
theorem flatten_getElem? {α : Type} (c : Nat) : ∀ (rows : List (List α)), (∀ r ∈ rows, r.length = c) →
    ∀ (i j : Nat) (r : List α), rows[i]? = some r → j < c → rows.flatten[i * c + j]? = r[j]?
  | [], _, i, j, r, hr, _ => by simp at hr
  | a :: rows, h, 0, j, r, hr, hj => by
    simp only [List.getElem?_cons_zero, Option.some.injEq] at hr
    subst hr
    have := h a (by simp)
    simp only [List.flatten_cons, Nat.zero_mul, Nat.zero_add]
    rw [List.getElem?_append_left (by omega)]
  | a :: rows, h, i + 1, j, r, hr, hj => by
    have ha := h a (by simp)
    have ih := flatten_getElem? c rows (fun x hx => h x (by simp [hx])) i j r (by simpa using hr) hj
    simp only [List.flatten_cons]
    rw [List.getElem?_append_right (by rw [ha, Nat.succ_mul]; omega), ← ih]
    congr 1
    rw [ha, Nat.succ_mul]; omega

theorem replicateCols_length (r : List F) : (replicateCols r).length = r.length := by
  simp [replicateCols]

theorem replicateRows_length (r : List (List F)) : (replicateRows r).length = r.length := by
  simp [replicateRows]

theorem set_ends_getElem? {α : Type} (x y : α) (r : List α) (h : 0 < r.length) (j : Nat) :
    ((x :: (r ++ [y])).set 0 ((x :: (r ++ [y])).getD 1 x))[j]? =
      if j = 0 then r[0]? else (x :: (r ++ [y]))[j]? := by
  by_cases hj : j = 0
  · subst hj
    simp only [List.getD, List.set_cons_zero, List.getElem?_cons_zero, List.getElem?_cons_succ, if_true]
    rw [List.getElem?_append_left h, List.getElem?_eq_getElem h]; rfl
  · rw [if_neg hj]
    rw [List.getElem?_set]
    simp [show ¬ 0 = j by omega]

/-- Replicating the ends of a list padded by one element on each side. -/
theorem replicate_ends_getElem? {α : Type} (x y d : α) (r : List α) (h : 0 < r.length) (j : Nat)
    (hj : j < r.length + 2) :
    (let s := (x :: (r ++ [y])).set 0 ((x :: (r ++ [y])).getD 1 d)
     s.set (s.length - 1) (s.getD (s.length - 2) d))[j]? = r[min (j - 1) (r.length - 1)]? := by
  have hs : ((x :: (r ++ [y])).set 0 ((x :: (r ++ [y])).getD 1 d)) = r[0] :: (r ++ [y]) := by
    simp only [List.set_cons_zero, List.getD, List.getElem?_cons_succ]
    rw [List.getElem?_append_left h, List.getElem?_eq_getElem h]; rfl
  simp only [hs]
  have hl : (r[0] :: (r ++ [y])).length = r.length + 2 := by simp
  rw [hl]
  have hg : (r[0] :: (r ++ [y])).getD (r.length + 2 - 2) d = r[r.length - 1] := by
    simp only [List.getD]
    have : r.length + 2 - 2 = (r.length - 1) + 1 := by omega
    rw [this, List.getElem?_cons_succ, List.getElem?_append_left (by omega),
      List.getElem?_eq_getElem (by omega)]; rfl
  rw [hg, List.getElem?_set]
  by_cases h1 : r.length + 2 - 1 = j
  · rw [if_pos h1, if_pos (by rw [hl]; omega)]
    have : min (j - 1) (r.length - 1) = r.length - 1 := by
      omega
    rw [this, List.getElem?_eq_getElem (by omega)]
  · rw [if_neg h1]
    have h2 : min (j - 1) (r.length - 1) = j - 1 := by
      omega
    rw [h2]
    cases j with
    | zero => simp [List.getElem?_eq_getElem h]
    | succ j =>
      simp only [List.getElem?_cons_succ, Nat.add_sub_cancel]
      rw [List.getElem?_append_left (by omega)]

theorem replicateCols_getElem? (r : List F) (h : 0 < r.length) (j : Nat) (hj : j < r.length + 2) :
    (replicateCols (0.0 :: (r ++ [0.0])))[j]? = r[min (j - 1) (r.length - 1)]? :=
  replicate_ends_getElem? (0.0 : F) 0.0 0.0 r h j hj

theorem padded_rows (m : Mat F) (h : 0 < m.nrows) (i : Nat) (hi : i < m.nrows + 2) :
    (replicateRows (padZero m).rows)[i]? =
      (m.rows[min (i - 1) (m.nrows - 1)]?).map (fun r => 0.0 :: (r ++ [0.0])) := by
  have := replicate_ends_getElem? (List.replicate (m.ncols + 2) (0.0 : F)) (List.replicate (m.ncols + 2) (0.0 : F)) []
    (m.rows.map fun r => (0.0 : F) :: (r ++ [0.0])) (by simpa [Mat.nrows] using h) i (by simpa [Mat.nrows] using hi)
  simp only [List.length_map] at this
  rw [← List.getElem?_map]
  exact this

theorem addMatrixBoundary_ncols (m : Mat F) : (addMatrixBoundary m).ncols = m.ncols + 2 := rfl

theorem addMatrixBoundary_nrows (m : Mat F) : (addMatrixBoundary m).nrows = m.nrows + 2 := by
  simp [addMatrixBoundary, Mat.nrows, replicateRows_length, padZero]

theorem addMatrixBoundary_row (m : Mat F) (wf : m.WF) (h : 0 < m.nrows) (hc : 0 < m.ncols) (i : Nat)
    (hi : i < m.nrows + 2) : ∃ r, (addMatrixBoundary m).rows[i]? = some r ∧ r.length = m.ncols + 2 ∧
      ∀ j, j < m.ncols + 2 → r[j]? = some (m.at (min (i - 1) (m.nrows - 1)) (min (j - 1) (m.ncols - 1))) := by
  have hlt : min (i - 1) (m.nrows - 1) < m.nrows := by omega
  obtain ⟨r, hr, hl, _⟩ := wf.at_get hlt hc
  refine ⟨replicateCols (0.0 :: (r ++ [0.0])), ?_, ?_, ?_⟩
  · simp only [addMatrixBoundary, List.getElem?_map]
    rw [padded_rows m h i hi, hr]; rfl
  · simp [replicateCols_length, hl]
  · intro j hj
    rw [replicateCols_getElem? r (by omega) j (by omega), hl]
    have hjlt : min (j - 1) (m.ncols - 1) < m.ncols := by omega
    obtain ⟨r', hr', _, hx⟩ := wf.at_get hlt hjlt
    rw [hr] at hr'; cases hr'
    exact hx

theorem addMatrixBoundary_wf (m : Mat F) (wf : m.WF) (h : 0 < m.nrows) (hc : 0 < m.ncols) :
    (addMatrixBoundary m).WF := by
  intro r hr
  obtain ⟨i, hi⟩ := List.getElem?_of_mem hr
  have hlt : i < m.nrows + 2 := by
    rw [← addMatrixBoundary_nrows]; exact (List.getElem?_eq_some_iff.mp hi).1
  obtain ⟨r', hr', hl, _⟩ := addMatrixBoundary_row m wf h hc i hlt
  rw [hi] at hr'; cases hr'
  exact hl

theorem flat_padded (m : Mat F) (wf : m.WF) (h : 0 < m.nrows) (hc : 0 < m.ncols) (i j r c : Nat)
    (hi : i < m.nrows) (hj : j < m.ncols) (hr : r < 3) (hcc : c < 3) :
    aidx (flattenMatrix (addMatrixBoundary m)) ((r + i) * (m.ncols + 2) + c + j) = .ok (m.near i j r c) := by
  obtain ⟨row, h1, h2, h3⟩ := addMatrixBoundary_row m wf h hc (r + i) (by omega)
  have h4 := flatten_getElem? (m.ncols + 2) (addMatrixBoundary m).rows (addMatrixBoundary_wf m wf h hc) (r + i) (c + j)
    row h1 (by omega)
  rw [h3 (c + j) (by omega)] at h4
  unfold aidx flattenMatrix
  rw [List.getElem?_toArray, Nat.add_assoc, h4]
  simp only [Mat.near, Nat.add_comm]

/-- A 3 by 3 matrix. -/
def mat3 (a b c d e f g h i : F) : Mat F := ⟨3, [[a, b, c], [d, e, f], [g, h, i]]⟩

/-- The value of one output cell, in the order in which the source adds. -/
def convSum (a b c d e f g h i : F) (x : Nat → Nat → F) : F :=
  0.0 + x 0 0 * i + x 1 0 * h + x 2 0 * g + x 0 1 * f + x 1 1 * e + x 2 1 * d + x 0 2 * c + x 1 2 * b + x 2 2 * a

theorem convCell_eq (m : Mat F) (wf : m.WF) (hn : 0 < m.nrows) (hc : 0 < m.ncols) (a b c d e f g h i : F)
    (r j : Nat) (hr : r < m.nrows) (hj : j < m.ncols) :
    convCell (flattenMatrix (addMatrixBoundary m)) (flattenMatrix (mat3 a b c d e f g h i)) (m.ncols + 2) 3 3 r j =
      .ok (convSum a b c d e f g h i (m.near r j)) := by
  have key : ∀ dr dc, dr < 3 → dc < 3 →
      aidx (flattenMatrix (addMatrixBoundary m)) ((dr + r) * (m.ncols + 2) + dc + j) = .ok (m.near r j dr dc) :=
    fun dr dc h1 h2 => flat_padded m wf hn hc r j dr dc hr hj h1 h2
  unfold convCell
  have hl : ((List.range 3).flatMap fun c => (List.range 3).map fun r => (c, r)) =
    [(0, 0), (0, 1), (0, 2), (1, 0), (1, 1), (1, 2), (2, 0), (2, 1), (2, 2)] := by decide
  have hw : ∀ k (x : F), [a, b, c, d, e, f, g, h, i][k]? = some x →
      aidx (flattenMatrix (mat3 a b c d e f g h i)) k = .ok x := by
    intro k x hx
    have : flattenMatrix (mat3 a b c d e f g h i) = [a, b, c, d, e, f, g, h, i].toArray := rfl
    rw [aidx, this, List.getElem?_toArray, hx]
  rw [hl]
  simp only [foldE, key 0 0 (by omega) (by omega), key 0 1 (by omega) (by omega), key 0 2 (by omega) (by omega),
    key 1 0 (by omega) (by omega), key 1 1 (by omega) (by omega), key 1 2 (by omega) (by omega),
    key 2 0 (by omega) (by omega), key 2 1 (by omega) (by omega), key 2 2 (by omega) (by omega), ok_bind,
    Nat.reduceMul, Nat.reduceSub, hw 8 i rfl, hw 7 h rfl, hw 6 g rfl, hw 5 f rfl, hw 4 e rfl, hw 3 d rfl, hw 2 c rfl,
    hw 1 b rfl, hw 0 a rfl]
  rfl

/-- The matrix with entries `g i j`. -/
def Mat.ofFn (n c : Nat) (g : Nat → Nat → F) : Mat F := ⟨c, (List.range n).map fun i => (List.range c).map (g i)⟩

@[simp] theorem Mat.ofFn_nrows (n c : Nat) (g : Nat → Nat → F) : (Mat.ofFn n c g).nrows = n := by
  simp [Mat.ofFn, Mat.nrows]
@[simp] theorem Mat.ofFn_ncols (n c : Nat) (g : Nat → Nat → F) : (Mat.ofFn n c g).ncols = c := rfl

theorem Mat.ofFn_wf (n c : Nat) (g : Nat → Nat → F) : (Mat.ofFn n c g).WF := by
  intro r hr
  obtain ⟨i, _, rfl⟩ := List.mem_map.mp hr
  simp [Mat.ofFn]

theorem Mat.ofFn_at (n c : Nat) (g : Nat → Nat → F) (i j : Nat) (hi : i < n) (hj : j < c) :
    (Mat.ofFn n c g).at i j = g i j := by
  apply Mat.at_eq_of_get (r := (List.range c).map (g i))
  · simp [Mat.ofFn, List.getElem?_range hi]
  · simp [List.getElem?_range hj]

theorem Mat.ofFn_congr {n c : Nat} {g g' : Nat → Nat → F} (h : ∀ i j, i < n → j < c → g i j = g' i j) :
    Mat.ofFn n c g = Mat.ofFn n c g' := by
  unfold Mat.ofFn
  congr 1
  apply List.map_congr_left
  intro i hi
  apply List.map_congr_left
  intro j hj
  exact h i j (List.mem_range.mp hi) (List.mem_range.mp hj)

theorem Mat.WF.eq_ofFn {m : Mat F} (wf : m.WF) : m = Mat.ofFn m.nrows m.ncols m.at := by
  cases m with
  | mk c rows =>
    unfold Mat.ofFn
    congr 1
    apply List.ext_getElem?
    intro i
    by_cases hi : i < rows.length
    · rw [List.getElem?_map, List.getElem?_range (by exact hi)]
      simp only [Option.map_some, List.getElem?_eq_getElem hi, Option.some.injEq]
      apply List.ext_getElem?
      intro j
      have hl : rows[i].length = c := wf rows[i] (List.getElem_mem hi)
      by_cases hj : j < c
      · obtain ⟨r, h1, _, h3⟩ := wf.at_get (i := i) (j := j) hi hj
        simp only [List.getElem?_eq_getElem hi, Option.some.injEq] at h1
        subst h1
        rw [h3]
        simp [List.getElem?_range hj]
      · rw [List.getElem?_eq_none (by omega), List.getElem?_eq_none (by simp; omega)]
    · rw [List.getElem?_eq_none (by omega), List.getElem?_eq_none (by simp [Mat.nrows]; omega)]

theorem Mat.ofFn_map (f : F → F) (n c : Nat) (g : Nat → Nat → F) :
    (Mat.ofFn n c g).map f = Mat.ofFn n c (fun i j => f (g i j)) := by
  simp [Mat.map, Mat.ofFn, Function.comp_def]

theorem zipWith_map_range {α β γ : Type} (f : α → β → γ) (n : Nat) (g : Nat → α) (h : Nat → β) :
    List.zipWith f ((List.range n).map g) ((List.range n).map h) = (List.range n).map fun i => f (g i) (h i) := by
  rw [List.zipWith_map, List.zipWith_self]

theorem Mat.ofFn_zip (f : F → F → F) (n c : Nat) (g h : Nat → Nat → F) :
    Mat.zip f (Mat.ofFn n c g) (Mat.ofFn n c h) = .ok (Mat.ofFn n c (fun i j => f (g i j) (h i j))) := by
  unfold Mat.zip Mat.ofFn
  rw [if_pos ⟨rfl, by simp⟩, zipWith_map_range]
  simp only [zipWith_map_range]

theorem Mat.ofFn_near (n c : Nat) (g : Nat → Nat → F) (i j dr dc : Nat) (hn : 0 < n) (hc : 0 < c) :
    (Mat.ofFn n c g).near i j dr dc = g (min (i + dr - 1) (n - 1)) (min (j + dc - 1) (c - 1)) := by
  unfold Mat.near
  rw [Mat.ofFn_at _ _ _ _ _ (by simp; omega) (by simp; omega)]
  simp

theorem conv2d_eq (p : Profile) (m : Mat F) (wf : m.WF) (hn : 0 < m.nrows) (hc : 0 < m.ncols)
    (a b c d e f g h i : F) :
    conv2d p (mat3 a b c d e f g h i) m =
      .ok (Mat.ofFn m.nrows m.ncols fun r j => convSum a b c d e f g h i (m.near r j)) := by
  unfold conv2d
  have h1 : outSize p (addMatrixBoundary m).nrows (mat3 a b c d e f g h i).nrows = .ok m.nrows := by
    rw [addMatrixBoundary_nrows]
    show outSize p (m.nrows + 2) 3 = _
    unfold outSize
    rw [if_pos (by omega)]
    congr 1
    omega
  have h2 : outSize p (addMatrixBoundary m).ncols (mat3 a b c d e f g h i).ncols = .ok m.ncols := by
    rw [addMatrixBoundary_ncols]
    show outSize p (m.ncols + 2) 3 = _
    unfold outSize
    rw [if_pos (by omega)]
    congr 1
    omega
  simp only [h1, h2, ok_bind]
  rw [mapE_of_forall (g := fun r => (List.range m.ncols).map fun j => convSum a b c d e f g h i (m.near r j))]
  · rfl
  · intro r hr
    apply mapE_of_forall
    intro j hj
    exact convCell_eq m wf hn hc a b c d e f g h i r j (List.mem_range.mp hr) (List.mem_range.mp hj)

/-! ## The similarity map -/

/-- The NSIM window applied to the neighbourhood `x`. -/
def nsimAvg (x : Nat → Nat → F) : F :=
  convSum 0.0113033910173052 0.0838251475442633 0.0113033910173052
          0.0838251475442633 0.619485845753726 0.0838251475442633
          0.0113033910173052 0.0838251475442633 0.0113033910173052 x

theorem nsimConv (p : Profile) (n c : Nat) (hn : 0 < n) (hc : 0 < c) (g : Nat → Nat → F) :
    conv2d p nsimWindow (Mat.ofFn n c g) = .ok (Mat.ofFn n c fun i j => nsimAvg ((Mat.ofFn n c g).near i j)) := by
  have h := conv2d_eq p (Mat.ofFn n c g) (Mat.ofFn_wf n c g) (by simpa using hn) (by simpa using hc)
    0.0113033910173052 0.0838251475442633 0.0113033910173052
    0.0838251475442633 0.619485845753726 0.0838251475442633
    0.0113033910173052 0.0838251475442633 0.0113033910173052
  simp only [Mat.ofFn_nrows, Mat.ofFn_ncols] at h
  exact h

/-- The structure term's denominator. -/
def strDenom (e : F) : F := if Flt.lt e 0.0 then nsimC3 else Flt.sqrt e + nsimC3

/-- One cell of the similarity map, from the two neighbourhoods. -/
def simCell (x y : Nat → Nat → F) : F :=
  let mx := nsimAvg x
  let my := nsimAvg y
  let sxx := nsimAvg (fun r c => x r c * x r c) - mx * mx
  let syy := nsimAvg (fun r c => y r c * y r c) - my * my
  let sxy := nsimAvg (fun r c => x r c * y r c) - mx * my
  ((mx * my * 2.0 + nsimC1) / (mx * mx + my * my + nsimC1)) * ((sxy + nsimC3) / strDenom (sxx * syy))

theorem simMap_eq (p : Profile) (ref deg : Mat F) (wr : ref.WF) (wd : deg.WF) (hs : ref.SameShape deg)
    (hn : 0 < ref.nrows) (hc : 0 < ref.ncols) :
    simMap p ref deg = .ok (Mat.ofFn ref.nrows ref.ncols fun i j => simCell (ref.near i j) (deg.near i j)) := by
  obtain ⟨h1, h2⟩ := hs
  have er := wr.eq_ofFn
  have ed := wd.eq_ofFn
  rw [← h1, ← h2] at ed
  generalize ref.nrows = n at *
  generalize ref.ncols = c at *
  have nr : ∀ (g : Nat → Nat → F) i j, (Mat.ofFn n c g).near i j =
      fun r k => g (min (i + r - 1) (n - 1)) (min (j + k - 1) (c - 1)) := by
    intro g i j; funext r k; exact Mat.ofFn_near n c g i j r k hn hc
  have e1 : ∀ i j, ref.near i j = (Mat.ofFn n c ref.at).near i j := by intro i j; rw [← er]
  have e2 : ∀ i j, deg.near i j = (Mat.ofFn n c deg.at).near i j := by intro i j; rw [← ed]
  simp only [e1, e2]
  generalize ref.at = A at *
  generalize deg.at = B at *
  subst er ed
  unfold simMap
  simp only [nsimConv p n c hn hc, ok_bind, Mat.ofFn_zip, Mat.ofFn_map, nr]
  rfl

theorem measurePatchSimilarity_eq (p : Profile) (ref deg : Mat F) (wr : ref.WF) (wd : deg.WF)
    (hs : ref.SameShape deg) (hn : 0 < ref.nrows) (hc : 0 < ref.ncols) :
    let sm := Mat.ofFn ref.nrows ref.ncols fun i j => simCell (ref.near i j) (deg.near i j)
    let means := sm.rows.map (fun r => Flt.sum r / Flt.ofNat ref.ncols)
    measurePatchSimilarity p ref deg = .ok (PatchSim.new means (sm.rows.map stdRow)
      (deg.rows.map (fun r => Flt.sum r / Flt.ofNat deg.ncols)) (Flt.sum means / Flt.ofNat ref.nrows)) := by
  intro sm means
  unfold measurePatchSimilarity
  rw [simMap_eq p ref deg wr wd hs hn hc]
  have hc' : deg.ncols ≠ 0 := by have := hs.2; omega
  have h1 : deg.meanRows = some (deg.rows.map (fun r => Flt.sum r / Flt.ofNat deg.ncols)) := by
    unfold Mat.meanRows; rw [if_neg hc']
  have h2 : sm.meanRows = some means := by
    unfold Mat.meanRows; rw [if_neg (by show ¬ ref.ncols = 0; omega)]; rfl
  have hl : means.length = ref.nrows := by simp [means, sm, Mat.ofFn]
  have h3 : meanOpt means = some (Flt.sum means / Flt.ofNat ref.nrows) := by
    unfold meanOpt
    rw [if_neg (by intro h; rw [h] at hl; simp at hl; omega), hl]
  simp only [ok_bind, h1, expect]
  show (expect sm.meanRows >>= _) = _
  rw [h2]
  simp only [expect, ok_bind, h3]
  rfl

end Visqol
