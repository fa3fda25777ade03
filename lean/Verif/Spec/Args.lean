import Verif.Model.Args

/-! # Specification vocabulary: what a command line means -/

namespace Visqol

/-- The options of one subcommand or of the tool itself are in order: declared (`true`: with a value), and given once. -/
def OnceEach (decls : List (String × Bool)) (g : Given) : Prop :=
  (∀ id v, (id, v) ∈ g → (id, v.isSome) ∈ decls) ∧ (g.map Prod.fst).Nodup

/-- The options of the tool itself, as documented in its help. -/
def toolOptions : List (String × Bool) :=
  [("batch_input_csv", true), ("reference_file", true), ("degraded_file", true), ("results_csv", true), ("verbose", false),
   ("output_debug", true), ("search_window_radius", true)]

/-- What the subcommand and its options mean. -/
inductive Chooses : Option (String × Given) → Variant → Prop
  | wideband {g : Given} : OnceEach [("use_unscaled_speech_mos_mapping", false)] g →
      ("use_unscaled_speech_mos_mapping", none) ∉ g → Chooses (some ("wideband", g)) (.wideband false)
  | unscaled {g : Given} : OnceEach [("use_unscaled_speech_mos_mapping", false)] g →
      ("use_unscaled_speech_mos_mapping", none) ∈ g → Chooses (some ("wideband", g)) (.wideband true)
  | fullband {g : Given} : OnceEach [("similarity_to_quality_model", true)] g → (∀ s, ("similarity_to_quality_model", some s) ∉ g) →
      Chooses (some ("fullband", g)) (.fullband "./model/libsvm_nu_svr_model.txt")
  | model {g : Given} {path : String} : OnceEach [("similarity_to_quality_model", true)] g → ("similarity_to_quality_model", some path) ∈ g →
      Chooses (some ("fullband", g)) (.fullband path)

end Visqol
