import Verif.Model.Cli

/-! # The texts of the two files the command line tool writes

`ryu x` stands for the text of a number as produced by the `ryu` crate, which both `serde_json` and `csv` use (external). -/

namespace Visqol
variable {F : Type}

/-- A number in JSON (`output_utils.rs:51`; `serde_json`, `serialize_f64`): `null` if it is not finite (`x - x` is NaN exactly then). -/
def jsonNumber [Flt F] (ryu : F → List Char) (x : F) : List Char :=
  if Flt.isNaN (x - x) then "null".toList else ryu x

/-- Indentation. -/
def spaces (n : Nat) : List Char := List.replicate n ' '

/-- `output_utils.rs:51`: an array or object as written by the `PrettyFormatter` of `serde_json` (two spaces per level, an empty one without line
break): `items` are the texts of the elements. -/
def jsonGroup (opening closing : Char) (indent : Nat) : List (List Char) → List Char
  | [] => [opening, closing]
  | x :: xs => opening :: '\n' :: (spaces (indent + 2) ++ x ++ (xs.flatMap fun y => ',' :: '\n' :: (spaces (indent + 2) ++ y)) ++
      '\n' :: (spaces indent ++ [closing]))

/-- A sequence of values. -/
def jsonArray (indent : Nat) (items : List (List Char)) : List Char := jsonGroup '[' ']' indent items

/-- A struct: its field names with the texts of their values. -/
def jsonObject (indent : Nat) (fields : List (String × List Char)) : List Char :=
  jsonGroup '{' '}' indent (fields.map fun f => '"' :: (f.1.toList ++ '"' :: ':' :: ' ' :: f.2))

/-- `patch_similarity_comparator.rs:3-23`: the derived `Serialize`. -/
def PatchSim.json [Flt F] (ryu : F → List Char) (indent : Nat) (q : PatchSim F) : List Char :=
  jsonObject indent
    [("freq_band_means", jsonArray (indent + 2) (q.freqBandMeans.map (jsonNumber ryu))),
     ("freq_band_stddevs", jsonArray (indent + 2) (q.freqBandStddevs.map (jsonNumber ryu))),
     ("freq_band_deg_energy", jsonArray (indent + 2) (q.freqBandDegEnergy.map (jsonNumber ryu))),
     ("similarity", jsonNumber ryu q.similarity),
     ("ref_patch_start_time", jsonNumber ryu q.refStart),
     ("ref_patch_end_time", jsonNumber ryu q.refEnd),
     ("deg_patch_start_time", jsonNumber ryu q.degStart),
     ("deg_patch_end_time", jsonNumber ryu q.degEnd)]

/-- `similarity_result.rs:5-22`: the derived `Serialize`. -/
def SimilarityResult.json [Flt F] (ryu : F → List Char) (indent : Nat) (r : SimilarityResult F) : List Char :=
  jsonObject indent
    [("moslqo", jsonNumber ryu r.moslqo),
     ("vnsim", jsonNumber ryu r.vnsim),
     ("fvnsim", jsonArray (indent + 2) (r.fvnsim.map (jsonNumber ryu))),
     ("fstdnsim", jsonArray (indent + 2) (r.fstdnsim.map (jsonNumber ryu))),
     ("fvdegenergy", jsonArray (indent + 2) (r.fvdegenergy.map (jsonNumber ryu))),
     ("center_freq_bands", jsonArray (indent + 2) (r.centerFreqBands.map (jsonNumber ryu))),
     ("patch_sims", jsonArray (indent + 2) (r.patchSims.map (PatchSim.json ryu (indent + 4))))]

/-- `output_utils.rs:48-55`: the content of the debug file, `serde_json::to_string_pretty` of the result, empty if there is none. -/
def debugText [Flt F] (ryu : F → List Char) : Option (SimilarityResult F) → List Char
  | none => []
  | some r => r.json ryu 0

/-- `output_utils.rs:58-70`: the content of the results file.  `csv` ends every record by a line feed; numbers need no quotes. -/
def csvText (ryu : F → List Char) (records : List (List F)) : List Char :=
  records.flatMap fun fields => [','].intercalate (fields.map ryu) ++ ['\n']

end Visqol
