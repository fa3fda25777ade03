import Verif.Model.Cli

/-! # The command line arguments (`visqol/src/command_line_utils.rs`)

What `clap` 4.5 does with the declarations in `command_line_utils.rs` is modelled from its documentation: the identifier of an
argument is the name of the field as written; a debug build checks before parsing that every identifier mentioned in `requires` or
`conflicts_with` is declared, and panics otherwise; a release build makes no such check and a required identifier that is not
declared has no effect.  Splitting the command line into occurrences of options, `--help` and `--version` are not modelled. -/

namespace Visqol

/-- `main.rs:40`: how argument parsing fails: with a usage message and exit status 2, or with a panic. -/
inductive ArgsFail where
  | usage
  | panic
  deriving DecidableEq, Repr

/-- The declaration of an option, the attributes of a field in `command_line_utils.rs:7-103`. -/
structure ArgDecl where
  id : String
  takesValue : Bool
  requires : List String
  conflicts : List String

/-- `command_line_utils.rs:50-103`: the options of the tool itself. -/
def topDecls : List ArgDecl :=
  [⟨"batch_input_csv", true, [], ["reference_file", "degraded_file"]⟩,
   ⟨"reference_file", true, ["degraded-file"], ["batch_input_csv"]⟩,
   ⟨"degraded_file", true, ["reference-file"], ["batch_input_csv"]⟩,
   ⟨"results_csv", true, [], []⟩,
   ⟨"verbose", false, [], []⟩,
   ⟨"output_debug", true, [], []⟩,
   ⟨"search_window_radius", true, [], []⟩]

/-- `command_line_utils.rs:15-19`. -/
def widebandDecls : List ArgDecl := [⟨"use_unscaled_speech_mos_mapping", false, [], []⟩]
/-- `command_line_utils.rs:22-30`. -/
def fullbandDecls : List ArgDecl := [⟨"similarity_to_quality_model", true, [], []⟩]

/-- The options given, with their values. -/
abbrev Given := List (String × Option String)

/-- A command line (`CommandLineArgs::parse`, `main.rs:40`): the options before the subcommand, the subcommand (if any) and the options after it. -/
structure RawArgs where
  top : Given
  sub : Option (String × Given)

/-- Every option given is declared, has a value exactly if it takes one, and is not repeated. -/
def givenOk (decls : List ArgDecl) (g : Given) : Bool :=
  g.all (fun x => decls.any fun d => d.id == x.1 && d.takesValue == x.2.isSome) && (g.map Prod.fst).Nodup

/-- Whether an option is given. -/
def isGiven (g : Given) (id : String) : Bool := g.any fun x => x.1 == id
/-- The value given for an option. -/
def valueGiven (g : Given) (id : String) : Option String := (g.find? fun x => x.1 == id).bind Prod.snd

/-- The check of a debug build: all identifiers mentioned are declared. -/
def mentionsDeclared (decls : List ArgDecl) : Bool :=
  decls.all fun d => (d.requires ++ d.conflicts).all fun r => decls.any fun e => e.id == r

/-- A conflicting option is given as well. -/
def conflict (decls : List ArgDecl) (g : Given) : Bool :=
  decls.any fun d => isGiven g d.id && d.conflicts.any (isGiven g)

/-- A declared required option is missing. -/
def missing (decls : List ArgDecl) (g : Given) : Bool :=
  decls.any fun d => isGiven g d.id && d.requires.any fun r => decls.any (fun e => e.id == r) && !isGiven g r

/-- An optional sign. -/
def dropPlus : List Char → List Char
  | '+' :: l => l
  | l => l

/-- `usize::from_str`, for the type of `search_window_radius`, `command_line_utils.rs:101-102`. -/
def parseUsize (s : String) : Option Nat :=
  let ds := dropPlus s.toList
  if ds ≠ [] ∧ ds.all Char.isDigit = true then
    let n := ds.foldl (fun n c => 10 * n + (c.toNat - '0'.toNat)) 0
    if n < 2 ^ 64 then some n else none
  else none

/-- `command_line_utils.rs:8-31`: the subcommand. -/
def parseSub : Option (String × Given) → Option Variant
  | some ("wideband", g) => if givenOk widebandDecls g then some (.wideband (isGiven g "use_unscaled_speech_mos_mapping")) else none
  | some ("fullband", g) =>
    if givenOk fullbandDecls g then
      some (.fullband ((valueGiven g "similarity_to_quality_model").getD "./model/libsvm_nu_svr_model.txt"))
    else none
  | _ => none

/-- `command_line_utils.rs:101-102`: the search radius, 60 by default. -/
def parseRadius (g : Given) : Option Nat :=
  match valueGiven g "search_window_radius" with
  | none => some 60
  | some s => parseUsize s

/-- `main.rs:40` `CommandLineArgs::parse`. -/
def parseArgs (p : Profile) (raw : RawArgs) : Except ArgsFail CliArgs :=
  if p = .checked ∧ !mentionsDeclared topDecls then .error .panic
  else if !givenOk topDecls raw.top || conflict topDecls raw.top || missing topDecls raw.top then .error .usage
  else match parseSub raw.sub, parseRadius raw.top with
    | some v, some radius =>
      .ok { variant := v, batchInputCsv := valueGiven raw.top "batch_input_csv",
            referenceFile := valueGiven raw.top "reference_file", degradedFile := valueGiven raw.top "degraded_file",
            resultsCsv := valueGiven raw.top "results_csv", verbose := isGiven raw.top "verbose",
            outputDebug := valueGiven raw.top "output_debug", searchWindowRadius := radius }
    | _, _ => .error .usage

end Visqol
