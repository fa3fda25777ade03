import Verif.Model.Cli
import Mathlib.Data.List.Forall2

/-! # Specification vocabulary: observing a trace of the command line tool -/

namespace Visqol
variable {F : Type}

/-- MOS values printed, in order. -/
def mosLines (t : List (Effect F)) : List F := t.filterMap fun | .mosLine v => some v | _ => none

/-- Path lines (left) and MOS lines (right) printed, in order. -/
def consoleLines (t : List (Effect F)) : List (PathPair ⊕ F) :=
  t.filterMap fun | .paths q => some (.inl q) | .mosLine v => some (.inr v) | _ => none

/-- Debug JSON files written. -/
def jsonFiles (t : List (Effect F)) : List (String × Option (SimilarityResult F)) :=
  t.filterMap fun | .jsonFile path c => some (path, c) | _ => none

/-- Results CSV files completely written. -/
def csvFiles (t : List (Effect F)) : List (String × List (List F)) :=
  t.filterMap fun | .csvFile path c => some (path, c) | _ => none

variable [Flt F] [RustFft F]

/-- The pairs succeed one by one, each compared alone by the manager `m`, with these results. -/
def EachAlone (p : Profile) (world : World F) (m : Manager F) (pairs : List PathPair) (rs : List (SimilarityResult F)) : Prop :=
  List.Forall₂ (fun pair r => ∃ m', m.run p world pair.reference pair.degraded = .ok (m', r)) pairs rs

end Visqol
