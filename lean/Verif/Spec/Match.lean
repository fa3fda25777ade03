import Verif.Model.Nsim

/-! # Specification vocabulary: matching reference patches to stretches of the degraded spectrogram -/

namespace Visqol
variable {F : Type} [Flt F]

/-- Columns `o, ..., o + len - 1`; columns past the end of the matrix are 0. -/
def Mat.window (m : Mat F) (o len : Nat) : Mat F := ⟨len, m.rows.map fun r => (List.range len).map fun c => r.getD (o + c) 0.0⟩

/-- Result `r` reports that a reference patch is matched to the stretch of `deg` that starts at column `o`: its scores are the
comparison of the two and its degraded times are those of the stretch (`fd` is the duration of a column, `pd` of a patch). -/
structure MatchedAt (p : Profile) (deg patch : Mat F) (fd pd : F) (o : Nat) (r : PatchSim F) : Prop where
  start : r.degStart = Flt.ofNat o * fd
  stop : r.degEnd = Flt.ofNat o * fd + pd
  scores : ∃ n, measurePatchSimilarity p patch (deg.window o patch.ncols) = .ok n ∧ r.similarity = n.similarity ∧
    r.freqBandMeans = n.freqBandMeans ∧ r.freqBandStddevs = n.freqBandStddevs ∧ r.freqBandDegEnergy = n.freqBandDegEnergy

/-- Result `r` reports that a reference patch has no match. -/
structure Unmatched (r : PatchSim F) : Prop where
  start : r.degStart = 0.0
  stop : r.degEnd = 0.0
  similarity : r.similarity = 0.0
  means : ∀ x ∈ r.freqBandMeans, x = 0.0

/-- Result `r` reports choice `c`: a match at a column, or none. -/
def Reports (p : Profile) (deg patch : Mat F) (fd pd : F) (r : PatchSim F) : Option Nat → Prop
  | some o => MatchedAt p deg patch fd pd o r
  | none => Unmatched r

/-- A choice for every patch keeps the order in time: the chosen columns strictly increase. -/
def InOrder (c : List (Option Nat)) : Prop := (c.filterMap id).Pairwise (· < ·)

/-- The total of the similarities `s k o` of patch `k` at column `o`, for the patches that have a match. -/
def totalSim {R : Type} [Zero R] [Add R] (s : Nat → Nat → R) (c : List (Option Nat)) : R :=
  (c.mapIdx fun k x => x.elim 0 (s k)).sum

/-- The total of the similarities of the patches that have a match, formed in floating point: each similarity is added to the total of
the patches before it.  `none` if there is no match. -/
def runningTotal (s : Nat → Nat → F) (c : List (Option Nat)) : Option F :=
  c.zipIdx.foldl (fun t x => match x.1, t with
    | none, t => t
    | some o, none => some (s x.2 o)
    | some o, some t => some (s x.2 o + t)) none

/-- The similarity of reference patch `k` with the stretch of `deg` that starts at column `o` (`0.0` if they cannot be compared). -/
def simAt (p : Profile) (patches : List (Mat F)) (deg : Mat F) (k o : Nat) : F :=
  match patches[k]? with
  | none => 0.0
  | some m => match measurePatchSimilarity p m (deg.window o m.ncols) with
    | .ok n => n.similarity
    | .error _ => 0.0

/-- A choice that may be made for the patches: in order, inside the spectrogram, and with a match for the first patch. -/
structure Admissible (ncols : Nat) (c : List (Option Nat)) : Prop where
  order : InOrder c
  inside : ∀ o ∈ c.filterMap id, o < ncols
  first : ∃ o, c[0]? = some (some o)

/-- Column `o` is in the search window of patch `k`: at most `sw` columns away from the start `ix[k]` of the patch. -/
def InWindow (ix : List Nat) (sw ncols k o : Nat) : Prop := ∃ i, ix[k]? = some i ∧ i ≤ o + sw ∧ o ≤ i + sw ∧ o < ncols

/-- The latest column chosen for a patch. -/
def latest (c : List (Option Nat)) : Option Nat := (c.filterMap id).getLast?

/-- A choice that may be made within the search windows: in order, and at every patch the latest column chosen so far lies in the
window of that patch.  So a patch with a choice has it in its own window, the first patch has one, and a patch may go without as long
as the search window still reaches back to the latest choice. -/
structure Within (ix : List Nat) (sw ncols : Nat) (c : List (Option Nat)) : Prop where
  order : InOrder c
  window : ∀ k < c.length, ∃ o, latest (c.take (k + 1)) = some o ∧ InWindow ix sw ncols k o

end Visqol
