import Verif.Model.Num

/-! # Two-dimensional arrays (`ndarray::Array2<f64>`), as lists of rows. -/

namespace Visqol

/-- `Array2<f64>`: `rows.length` rows of `ncols` entries each (`Mat.WF`). -/
structure Mat (F : Type) where
  ncols : Nat
  rows : List (List F)
  deriving DecidableEq, Repr

namespace Mat
variable {F : Type}

/-- `Array2::nrows` -/
def nrows (m : Mat F) : Nat := m.rows.length

/-- All rows have the declared length; every `ndarray` array satisfies this. -/
def WF (m : Mat F) : Prop := ∀ r ∈ m.rows, r.length = m.ncols

/-- `Array2::mapv` / `map_inplace` -/
def map (f : F → F) (m : Mat F) : Mat F := ⟨m.ncols, m.rows.map (List.map f)⟩

/-- Elementwise binary operation of two arrays.  `ndarray` would also broadcast a single row or column;
here every shape mismatch is a panic (the callers are shown to pass equal shapes). -/
def zip (f : F → F → F) (a b : Mat F) : M (Mat F) :=
  if a.ncols = b.ncols ∧ a.rows.length = b.rows.length then
    .ok ⟨a.ncols, List.zipWith (List.zipWith f) a.rows b.rows⟩
  else .error (.panic .shape)

/-- `m[(i, j)]` -/
def get? (m : Mat F) (i j : Nat) : Option F := (m.rows[i]?).bind (·[j]?)

/-- `slice(s![.., a..b]).to_owned()` -/
def sliceCols (m : Mat F) (a b : Nat) : M (Mat F) :=
  if a ≤ b ∧ b ≤ m.ncols then .ok ⟨b - a, m.rows.map (fun r => (r.drop a).take (b - a))⟩
  else .error (.panic .slice)

/-- `concatenate(Axis(1), [m, zeros((m.nrows(), k))])` -/
def appendZeroCols [Flt F] (m : Mat F) (k : Nat) : Mat F :=
  ⟨m.ncols + k, m.rows.map (fun r => r ++ List.replicate k (0.0 : F))⟩

/-- The entries in row-major (iteration) order. -/
def toList (m : Mat F) : List F := m.rows.flatten

/-- `index_axis(Axis(1), j)`: column `j`. -/
def col (m : Mat F) (j : Nat) : List F := m.rows.filterMap (·[j]?)

variable [Flt F]

/-- `mean_axis(Axis(1))`: `None` when there are no columns. -/
def meanRows (m : Mat F) : Option (List F) :=
  if m.ncols = 0 then none else some (m.rows.map (fun r => Flt.sum r / Flt.ofNat m.ncols))

end Mat

variable {F : Type} [Flt F]

/-- `Array1::mean`: `None` when empty. -/
def meanOpt (l : List F) : Option F :=
  if l = [] then none else some (Flt.sum l / Flt.ofNat l.length)

/-- One row of `ndarray`'s `var_axis` (Welford's algorithm): state is (index, mean, sum of squares). -/
def welford : List F → Nat → F → F → F
  | [], _, _, s => s
  | x :: xs, i, mean, s =>
    let delta := x - mean
    let mean' := mean + delta / Flt.ofNat (i + 1)
    welford xs (i + 1) mean' (Flt.mulAdd (x - mean') delta s)

/-- `std_axis(Axis(1), 1.0)` for one row. -/
def stdRow (r : List F) : F :=
  Flt.sqrt (welford r 0 0.0 0.0 / (Flt.ofNat r.length - 1.0))

/-- `ndarray_stats::QuantileExt::max` / `min`: fold from the first element; empty input and any
unordered comparison are errors (both are `expect`ed by the callers).  `keep` is `Greater` for `max`, `Less` for `min`. -/
def extremum (keep : Ordering) (l : List F) : Option F :=
  match l with
  | [] => none
  | a :: _ => l.foldl (fun acc x => do
      let m ← acc
      let c ← Flt.partialCmp x m
      some (if c = keep then x else m)) (some a)

end Visqol
