import Verif.Num.Ieee
import Verif.Model.Manager

/-! # Specification vocabulary: all numbers of a result -/

namespace Visqol
open Ieee
variable {F : Type}

/-- All numbers reported for one patch. -/
def PatchSim.numbers (q : PatchSim F) : List F :=
  q.freqBandMeans ++ q.freqBandStddevs ++ q.freqBandDegEnergy ++ [q.similarity, q.refStart, q.refEnd, q.degStart, q.degEnd]

/-- All numbers of a result. -/
def SimilarityResult.numbers (res : SimilarityResult F) : List F :=
  res.moslqo :: res.vnsim :: (res.fvnsim ++ res.fstdnsim ++ res.fvdegenergy ++ res.centerFreqBands ++ res.patchSims.flatMap PatchSim.numbers)

/-- No number of the result is NaN or infinite, and no standard deviation and no energy (of a patch or of the run) is
negative. -/
structure AllNumbers [Flt F] [Ieee F] (res : SimilarityResult F) : Prop where
  finite : ∀ a ∈ res.numbers, ∃ x, val a = .fin x
  deviations : ∀ a ∈ res.fstdnsim ++ res.patchSims.flatMap PatchSim.freqBandStddevs, ∃ x, val a = .fin x ∧ 0 ≤ x
  energies : ∀ a ∈ res.fvdegenergy ++ res.patchSims.flatMap PatchSim.freqBandDegEnergy, ∃ x, val a = .fin x ∧ 0 ≤ x ∧ x ≤ 8195

/-- The regression model has at least `n` features and returns a number whenever it is asked about `n` numbers of moderate size (in single
precision) followed by zeros. -/
def Answers [Flt F] [Ieee F] (model : SvrModel F) (n : Nat) : Prop := n ≤ model.numFeatures ∧
  ∀ v : List F, v.length = n → (∀ a ∈ v, ∃ x, val a = .fin x ∧ |x| ≤ 2 ^ 18) →
    ∃ q, model.predict (v.map Flt.toF32 ++ List.replicate (model.numFeatures - n) 0.0) = some (some q) ∧ val q ≠ .nan

end Visqol
