import Verif.Model.Mat

/-! # Specification vocabulary for matrices -/

namespace Visqol
variable {F : Type} [Flt F]

/-- The entry in row `i`, column `j` (`0.0` outside the matrix). -/
def Mat.at (m : Mat F) (i j : Nat) : F := (m.rows.getD i []).getD j 0.0

/-- The entry at `(i + dr - 1, j + dc - 1)`, where positions outside the matrix are replaced by the nearest position
inside (border replication).  Truncated subtraction clamps at the top and left, `min` at the bottom and right. -/
def Mat.near (m : Mat F) (i j dr dc : Nat) : F :=
  m.at (min (i + dr - 1) (m.nrows - 1)) (min (j + dc - 1) (m.ncols - 1))

/-- Same shape. -/
def Mat.SameShape (a b : Mat F) : Prop := a.nrows = b.nrows ∧ a.ncols = b.ncols

end Visqol
