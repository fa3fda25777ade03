import Verif.Spec.Cli

/-! # Specification vocabulary: the files left behind by the command line tool -/

namespace Visqol
variable {F : Type}

/-- What a path holds. -/
inductive FileContent (F : Type) where
  /-- whatever was there before the tool ran -/
  | untouched
  /-- one result as JSON; an empty file if there is none -/
  | json (result : Option (SimilarityResult F))
  /-- CSV records -/
  | table (records : List (List F))
  /-- CSV records followed by an unspecified part of another one -/
  | broken (records : List (List F))
  deriving DecidableEq, Repr

/-- The file an action replaces, with its new content. -/
def Effect.writes : Effect F → Option (String × FileContent F)
  | .jsonFile path c => some (path, .json c)
  | .csvFile path rows => some (path, .table rows)
  | .csvAborted path rows => some (path, .broken rows)
  | .banner | .paths _ | .mosLine _ | .fvnsimTable _ | .patchTable _ => none

/-- What `path` holds after the actions `t`: the last write to it counts. -/
def holds (t : List (Effect F)) (path : String) : FileContent F :=
  (((t.filterMap Effect.writes).filter fun w => w.1 = path).getLast?.map Prod.snd).getD .untouched

end Visqol
