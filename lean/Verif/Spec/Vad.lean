import Verif.Model.Patch

/-! # Specification vocabulary: voice activity -/

namespace Visqol
variable {F : Type} [Flt F]

/-- Sixteen-bit samples of frame `f` when frames of `hop` samples are counted from sample 14 of the normalised signal. -/
def judgedFrame (norm : List F) (hop f : Nat) : List Int := ((norm.drop (14 + f * hop)).take hop).map toPcm

/-- The root mean square of frame `f` is not below 5000. -/
def Loud (norm : List F) (hop f : Nat) : Prop :=
  Flt.lt (Flt.sqrt (Flt.ofInt ((judgedFrame norm hop f).map fun x => x * x).sum / Flt.ofNat hop) : F) 5000.0 = false

/-- Frame `f` counts as active: it or one of its two predecessors is loud, or it is one of the first two. -/
def Active (norm : List F) (hop f : Nat) : Prop :=
  f < 2 ∨ Loud norm hop f ∨ Loud norm hop (f - 1) ∨ Loud norm hop (f - 2)

end Visqol
