import Verif.Spec.Json
import Verif.Spec.Disk

/-! # Reading the files of the command line tool back -/

namespace Visqol.Spec
variable {F : Type}

/-! ## JSON -/

def numbers (num : F → List Char) (l : List F) : Json := .arr (l.map fun x => .atom (num x))

/-- A patch result as a JSON value; `num` is the text of a number. -/
def patchTree (num : F → List Char) (q : PatchSim F) : Json :=
  .obj [("freq_band_means".toList, numbers num q.freqBandMeans),
    ("freq_band_stddevs".toList, numbers num q.freqBandStddevs),
    ("freq_band_deg_energy".toList, numbers num q.freqBandDegEnergy),
    ("similarity".toList, .atom (num q.similarity)),
    ("ref_patch_start_time".toList, .atom (num q.refStart)),
    ("ref_patch_end_time".toList, .atom (num q.refEnd)),
    ("deg_patch_start_time".toList, .atom (num q.degStart)),
    ("deg_patch_end_time".toList, .atom (num q.degEnd))]

/-- A result as a JSON value. -/
def resultTree (num : F → List Char) (r : SimilarityResult F) : Json :=
  .obj [("moslqo".toList, .atom (num r.moslqo)),
    ("vnsim".toList, .atom (num r.vnsim)),
    ("fvnsim".toList, numbers num r.fvnsim),
    ("fstdnsim".toList, numbers num r.fstdnsim),
    ("fvdegenergy".toList, numbers num r.fvdegenergy),
    ("center_freq_bands".toList, numbers num r.centerFreqBands),
    ("patch_sims".toList, .arr (r.patchSims.map (patchTree num)))]

/-! ## CSV -/

/-- The pieces of a text between the occurrences of `c`. -/
def pieces (c : Char) : List Char → List (List Char)
  | [] => [[]]
  | x :: xs =>
    if x = c then [] :: pieces c xs
    else match pieces c xs with
      | [] => [[x]]
      | p :: ps => (x :: p) :: ps

/-- The fields of every line of a text whose lines all end in a line feed. -/
def tableFields (text : List Char) : List (List (List Char)) := (pieces '\n' text).dropLast.map (pieces ',')

/-- The patch result in `3 n + 5` fields, for `n` bands. -/
def readPatch {α : Type} (n : Nat) (l : List α) : Option (PatchSim α) :=
  match l.drop (3 * n) with
  | [s, a, b, c, d] => some ⟨l.take n, (l.drop n).take n, (l.drop (2 * n)).take n, s, a, b, c, d⟩
  | _ => none

/-- The patch results one after the other. -/
def readPatches {α : Type} (n : Nat) : Nat → List α → Option (List (PatchSim α))
  | 0, _ => some []
  | k + 1, l => do
    let q ← readPatch n (l.take (3 * n + 5))
    let qs ← readPatches n k (l.drop (3 * n + 5))
    some (q :: qs)

/-- The result in the fields of a record, for `n` bands. -/
def readRecord {α : Type} (n : Nat) : List α → Option (SimilarityResult α)
  | mos :: vn :: l =>
    (readPatches n ((l.length - 4 * n) / (3 * n + 5)) (l.drop (4 * n))).map fun qs =>
      ⟨mos, vn, l.take n, (l.drop n).take n, (l.drop (2 * n)).take n, (l.drop (3 * n)).take n, qs⟩
  | _ => none

/-- The results in a text, all of them for `n` bands. -/
def readResults (n : Nat) (text : List Char) : Option (List (SimilarityResult (List Char))) :=
  (tableFields text).mapM (readRecord n)

/-- The same patch result with other values in place of its numbers. -/
def mapPatch {α β : Type} (f : α → β) (q : PatchSim α) : PatchSim β :=
  ⟨q.freqBandMeans.map f, q.freqBandStddevs.map f, q.freqBandDegEnergy.map f, f q.similarity, f q.refStart, f q.refEnd, f q.degStart, f q.degEnd⟩

/-- The same result with other values in place of its numbers. -/
def mapResult {α β : Type} (f : α → β) (r : SimilarityResult α) : SimilarityResult β :=
  ⟨f r.moslqo, f r.vnsim, r.fvnsim.map f, r.fstdnsim.map f, r.fvdegenergy.map f, r.centerFreqBands.map f, r.patchSims.map (mapPatch f)⟩

end Visqol.Spec
