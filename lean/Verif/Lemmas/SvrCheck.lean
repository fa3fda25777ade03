import Verif.Lemmas.SvrData

/-! # Arithmetic of the default model, evaluated by the kernel -/

namespace Visqol.Svr

/-- `9! * 10^216` times the terms of even degree of the exponential series of `-x`, `x` in units of `10^-24`, up to degree 8. -/
def evenTerms (x : Nat) : Nat :=
  362880 * 10 ^ 216 + 181440 * (x ^ 2 * 10 ^ 168) + 15120 * (x ^ 4 * 10 ^ 120) + 504 * (x ^ 6 * 10 ^ 72) + 9 * (x ^ 8 * 10 ^ 24)

/-- The terms of odd degree up to degree 9, negated. -/
def oddTerms (x : Nat) : Nat :=
  362880 * (x * 10 ^ 192) + 60480 * (x ^ 3 * 10 ^ 144) + 3024 * (x ^ 5 * 10 ^ 96) + 72 * (x ^ 7 * 10 ^ 48) + x ^ 9

/-- The exponential of `-x` in units of `10^-15`, rounded down. -/
def expNat (x : Nat) : Nat := (evenTerms x - oddTerms x) * 10 ^ 15 / (362880 * 10 ^ 216)

def dot2 : List Nat → List Nat → Nat
  | a :: l, b :: m => a * b + dot2 l m
  | _, _ => 0

def dot3 : List Nat → List Nat → List Nat → Nat
  | a :: l, b :: m, c :: n => a * b * c + dot3 l m n
  | _, _, _ => 0

def sumNat : List Nat → Nat
  | [] => 0
  | a :: l => a + sumNat l

def checkRow : List Int → List (List Nat) → Bool
  | [], [] => true
  | x :: xs, (t :: _) :: cs =>
    (match x with
      | .ofNat k => k + t == 10 ^ 11
      | .negSucc k => t == 10 ^ 11 + (k + 1)) && checkRow xs cs
  | _, _ => false

/-- The columns and signed parts are those of the rows. -/
def checkRows : List (Int × List Int) → List Nat → List Nat → List (List Nat) → Bool
  | [], [], [], cols => cols.all fun c => c.isEmpty
  | (c, s) :: rs, p :: ps, n :: ns, cols =>
    (match c with
      | .ofNat k => k + n == p
      | .negSucc k => p + (k + 1) == n) && checkRow s cols && checkRows rs ps ns (cols.map List.tail)
  | _, _, _, _ => false

theorem rows_ok : checkRows defaultVectors pos neg cols = true := by decide +kernel

/-- Add the squared distances of a column from `w`. -/
def addDist (w : Nat) : List Nat → List Nat → List Nat
  | a :: l, b :: m => (a + (b - w + (w - b)) ^ 2) :: addDist w l m
  | _, _ => []

def addTo : List Nat → List Nat → List Nat
  | a :: l, b :: m => (a + b) :: addTo l m
  | _, _ => []

/-- The squared distances of the rows from `ws`, in units of `10^-22`. -/
def dists : List (List Nat) → List Nat → List Nat
  | [], _ => List.replicate 317 0
  | c :: cs, [] => addDist 0 (dists cs []) c
  | c :: cs, w :: ws => addDist w (dists cs ws) c

/-- The distances from perfect similarity, in units of `10^-11`. -/
def totals : List (List Nat) → List Nat
  | [] => List.replicate 317 0
  | c :: cs => addTo (totals cs) c

theorem sq_ok : dists cols [] = sq := by decide +kernel

theorem tot_ok : totals cols = tot := by decide +kernel

theorem kern_ok : sq.map expNat = kern := by decide +kernel

theorem wpos_ok : List.zipWith (· * ·) pos kern = wpos := by decide +kernel

theorem wneg_ok : List.zipWith (· * ·) neg kern = wneg := by decide +kernel

theorem lengths_ok : cols.all (fun c => c.length == 317) = true := by decide +kernel

theorem squares_small : sq.all (fun x => decide (x ≤ 14 * 10 ^ 22)) = true := by decide +kernel

theorem totals_small : tot.all (fun x => decide (x ≤ 15 * 10 ^ 11)) = true := by decide +kernel

/-- Positive parts of the linear and the quadratic coefficients. -/
def linPos : Nat := sumNat (cols.map fun c => dot2 wpos c - dot2 wneg c)

def quadRow (c : List Nat) : Nat := sumNat (cols.map fun d => dot3 wpos c d - dot3 wneg c d)

theorem lin_le : linPos ≤ 109 * 10 ^ 42 := by decide +kernel

theorem const_le : sumNat wpos ≤ sumNat wneg + 1050481 * 10 ^ 27 ∧ sumNat wneg + 1050480 * 10 ^ 27 ≤ sumNat wpos := by decide +kernel

/-- Sum of `p z^3 (16 + 5 z)`, `z` in units of `10^-13`. -/
def tail : List Nat → List Nat → Nat
  | p :: l, t :: m => p * ((4 * t) ^ 3 * (16 * 10 ^ 13 + 5 * (4 * t))) + tail l m
  | _, _ => 0

theorem tail_le : tail wpos tot ≤ 17 * 10 ^ 85 := by decide +kernel

theorem squares_le : dot2 pos sq ≤ 164 * 10 ^ 40 := by decide +kernel

theorem coef_le : sumNat pos + sumNat neg ≤ 313 * 10 ^ 18 := by decide +kernel

end Visqol.Svr
