import Verif.Lemmas.Conv
import Verif.Lemmas.Shape

/-! # Preparation of spectrograms, entry by entry -/

set_option linter.unusedSectionVars false

namespace Visqol
variable {F : Type} [Flt F]

theorem Mat.ofFn_col {n c : Nat} {g : Nat → Nat → F} {j : Nat} (hj : j < c) :
    (Mat.ofFn n c g).col j = (List.range n).map fun i => g i j := by
  unfold Mat.col Mat.ofFn
  rw [List.filterMap_map, ← List.filterMap_eq_map]
  apply List.filterMap_congr
  intro i _
  simp [List.getElem?_range hj]

theorem Mat.mem_ofFn_toList {n c : Nat} {g : Nat → Nat → F} {x : F} :
    x ∈ (Mat.ofFn n c g).toList ↔ ∃ i < n, ∃ j < c, x = g i j := by
  unfold Mat.toList Mat.ofFn
  simp only [List.mem_flatten, List.mem_map, List.mem_range]
  constructor
  · rintro ⟨r, ⟨i, hi, rfl⟩, hx⟩
    obtain ⟨j, hj, rfl⟩ := List.mem_map.mp hx
    exact ⟨i, hi, j, List.mem_range.mp hj, rfl⟩
  · rintro ⟨i, hi, j, hj, rfl⟩
    exact ⟨_, ⟨i, hi, rfl⟩, List.mem_map.mpr ⟨j, List.mem_range.mpr hj, rfl⟩⟩

/-- An entry raised to the floor of its column, where there is one. -/
def flooredAt (fl : List F) (g : Nat → Nat → F) (i j : Nat) : F :=
  match fl[j]? with
  | some f => Flt.max f (g i j)
  | none => g i j

theorem applyFloors_ofFn {fl : List F} {n c : Nat} {g : Nat → Nat → F} (h : fl.length ≤ c) :
    applyFloors fl (Mat.ofFn n c g) = Mat.ofFn n c (flooredAt fl g) := by
  unfold applyFloors Mat.ofFn
  simp only [List.map_map]
  congr 1
  apply List.map_congr_left
  intro i _
  simp only [Function.comp]
  apply List.ext_getElem?
  intro j
  by_cases hj : j < fl.length
  · rw [List.getElem?_append_left (by simp; omega), List.getElem?_zipWith, List.getElem?_map, List.getElem?_map,
      List.getElem?_range (by omega), List.getElem?_eq_getElem hj]
    simp [flooredAt, List.getElem?_eq_getElem hj]
  · rw [List.getElem?_append_right (by simp; omega), List.getElem?_drop]
    simp only [List.length_zipWith, List.length_map, List.length_range, List.getElem?_map]
    rw [show fl.length + (j - min fl.length c) = j by omega]
    by_cases hc : j < c
    · rw [List.getElem?_range hc]
      simp [flooredAt, List.getElem?_eq_none (Nat.not_lt.mp hj)]
    · rw [List.getElem?_eq_none (by simpa using hc)]; rfl

/-- An entry in decibels, not below -45. -/
def dbAt (m : Mat F) (i j : Nat) : F := Flt.max (-45.0) (sampleToDb (m.at i j))

theorem raised_eq {m : Mat F} (wf : m.WF) : raiseFloor (convertToDb m) (-45.0) = Mat.ofFn m.nrows m.ncols (dbAt m) := by
  conv_lhs => rw [wf.eq_ofFn]
  unfold raiseFloor convertToDb
  rw [Mat.ofFn_map, Mat.ofFn_map]
  rfl

/-- What a successful preparation computes. -/
structure Prepared (ref deg a b : Mat F) where
  floors : List F
  lowA : F
  lowB : F
  count : floors.length = min ref.ncols deg.ncols
  peaks : ∀ (j : Nat) f, floors[j]? = some f → ∃ pa pb,
    extremum .gt ((List.range ref.nrows).map fun i => dbAt ref i j) = some pa ∧
    extremum .gt ((List.range deg.nrows).map fun i => dbAt deg i j) = some pb ∧ f = Flt.max pa pb - 45.0
  minA : extremum .lt (Mat.ofFn ref.nrows ref.ncols (flooredAt floors (dbAt ref))).toList = some lowA
  minB : extremum .lt (Mat.ofFn deg.nrows deg.ncols (flooredAt floors (dbAt deg))).toList = some lowB
  eqA : a = Mat.ofFn ref.nrows ref.ncols fun i j => flooredAt floors (dbAt ref) i j - Flt.min lowA lowB
  eqB : b = Mat.ofFn deg.nrows deg.ncols fun i j => flooredAt floors (dbAt deg) i j - Flt.min lowA lowB

theorem prepare_ok {ref deg a b : Mat F} (wr : ref.WF) (wd : deg.WF) (h : prepareSpectrograms ref deg = .ok (a, b)) :
    Nonempty (Prepared ref deg a b) := by
  unfold prepareSpectrograms at h
  dsimp only at h
  rw [raised_eq wr, raised_eq wd] at h
  obtain ⟨⟨x, y⟩, h1, h⟩ := bind_ok h
  obtain ⟨la, h2, h⟩ := bind_ok h
  obtain ⟨lb, h3, h⟩ := bind_ok h
  unfold raiseFloorPerFrame at h1
  obtain ⟨fl, hfl, h1⟩ := bind_ok h1
  have hl := mapE_ok_length hfl
  simp only [List.length_range, Mat.ofFn_ncols] at hl
  rw [applyFloors_ofFn (by omega), applyFloors_ofFn (by omega)] at h1
  cases h1
  dsimp only at h2 h3 h
  cases h
  refine ⟨⟨fl, la, lb, hl, ?_, expect_ok h2, expect_ok h3, ?_, ?_⟩⟩
  · intro j f hj
    obtain ⟨j', hj', hf⟩ := mapE_ok_get' hfl hj
    have hjl : j < fl.length := by
      by_contra hc
      rw [List.getElem?_eq_none (by omega)] at hj
      cases hj
    rw [List.getElem?_range (by simp only [Mat.ofFn_ncols]; omega)] at hj'
    cases hj'
    unfold frameFloor at hf
    rw [Mat.ofFn_col (by omega), Mat.ofFn_col (by omega)] at hf
    obtain ⟨pa, h4, hf⟩ := bind_ok hf
    obtain ⟨pb, h5, hf⟩ := bind_ok hf
    cases hf
    exact ⟨pa, pb, expect_ok h4, expect_ok h5, rfl⟩
  · unfold subtractFloor
    rw [Mat.ofFn_map]
  · unfold subtractFloor
    rw [Mat.ofFn_map]

/-- Preparation succeeds when all the maxima and minima exist. -/
theorem prepare_total {ref deg : Mat F} (wr : ref.WF) (wd : deg.WF)
    (hp : ∀ j, j < ref.ncols → j < deg.ncols →
      (extremum .gt ((List.range ref.nrows).map fun i => dbAt ref i j)).isSome ∧
      (extremum .gt ((List.range deg.nrows).map fun i => dbAt deg i j)).isSome)
    (hm : ∀ fl : List F, fl.length = min ref.ncols deg.ncols →
      (∀ (j : Nat) f, fl[j]? = some f → ∃ pa pb,
        extremum .gt ((List.range ref.nrows).map fun i => dbAt ref i j) = some pa ∧
        extremum .gt ((List.range deg.nrows).map fun i => dbAt deg i j) = some pb ∧ f = Flt.max pa pb - 45.0) →
      (extremum .lt (Mat.ofFn ref.nrows ref.ncols (flooredAt fl (dbAt ref))).toList).isSome ∧
      (extremum .lt (Mat.ofFn deg.nrows deg.ncols (flooredAt fl (dbAt deg))).toList).isSome) :
    ∃ a b, prepareSpectrograms ref deg = .ok (a, b) := by
  unfold prepareSpectrograms
  dsimp only
  rw [raised_eq wr, raised_eq wd]
  unfold raiseFloorPerFrame
  obtain ⟨fl, hfl⟩ : ∃ fl, mapE (frameFloor 45.0 (Mat.ofFn ref.nrows ref.ncols (dbAt ref))
      (Mat.ofFn deg.nrows deg.ncols (dbAt deg)))
      (List.range (min (Mat.ofFn ref.nrows ref.ncols (dbAt ref)).ncols (Mat.ofFn deg.nrows deg.ncols (dbAt deg)).ncols)) = .ok fl := by
    apply mapE_total
    intro j hj
    have hj := List.mem_range.mp hj
    simp only [Mat.ofFn_ncols] at hj
    unfold frameFloor
    rw [Mat.ofFn_col (by omega), Mat.ofFn_col (by omega)]
    obtain ⟨h1, h2⟩ := hp j (by omega) (by omega)
    obtain ⟨x, hx⟩ := Option.isSome_iff_exists.mp h1
    obtain ⟨y, hy⟩ := Option.isSome_iff_exists.mp h2
    rw [hx, hy]
    exact ⟨_, rfl⟩
  have hl := mapE_ok_length hfl
  simp only [List.length_range, Mat.ofFn_ncols] at hl
  have hpk : ∀ (j : Nat) f, fl[j]? = some f → ∃ pa pb,
        extremum .gt ((List.range ref.nrows).map fun i => dbAt ref i j) = some pa ∧
        extremum .gt ((List.range deg.nrows).map fun i => dbAt deg i j) = some pb ∧ f = Flt.max pa pb - 45.0 := by
    intro j f hj
    obtain ⟨j', hj', hf⟩ := mapE_ok_get' hfl hj
    have hjl : j < fl.length := by
      by_contra hc
      rw [List.getElem?_eq_none (by omega)] at hj
      cases hj
    rw [List.getElem?_range (by simp only [Mat.ofFn_ncols]; omega)] at hj'
    cases hj'
    unfold frameFloor at hf
    rw [Mat.ofFn_col (by omega), Mat.ofFn_col (by omega)] at hf
    obtain ⟨pa, h4, hf⟩ := bind_ok hf
    obtain ⟨pb, h5, hf⟩ := bind_ok hf
    cases hf
    exact ⟨pa, pb, expect_ok h4, expect_ok h5, rfl⟩
  obtain ⟨h1, h2⟩ := hm fl hl hpk
  obtain ⟨x, hx⟩ := Option.isSome_iff_exists.mp h1
  obtain ⟨y, hy⟩ := Option.isSome_iff_exists.mp h2
  rw [hfl]
  simp only [ok_bind]
  rw [applyFloors_ofFn (by omega), applyFloors_ofFn (by omega)]
  unfold getMinimum
  rw [hx, hy]
  exact ⟨_, _, rfl⟩

end Visqol
