import Verif.Num.Ieee
import Verif.Model.Manager

/-! # Specification vocabulary: ordinary signals and finite scores in floating point -/

namespace Visqol
open Ieee
variable {F : Type} [Flt F] [Ieee F]

/-- The real number that `a` stands for (0 for NaN and the infinities). -/
noncomputable def number (a : F) : ℝ := match val a with
  | .fin x => x
  | _ => 0

/-- Samples are numbers of at most 2 in absolute value (decoded audio lies between -1 and 1). -/
def OrdinarySamples (s : AudioSignal F) : Prop := ∀ a ∈ s.data, ∃ x, val a = .fin x ∧ |x| ≤ 2

/-- Some sample from position `n` on is at least `2^-40` in absolute value (a non-zero 16 bit sample is at least `2^-15`). -/
def SoundFrom (n : Nat) (s : AudioSignal F) : Prop := ∃ a ∈ s.data.drop n, ∃ x, val a = .fin x ∧ 1 / 2 ^ 40 ≤ |x|

/-- The reported scores are numbers, the band similarities (of the run and of every patch), the deviations and the energies of moderate size,
and the MOS is from 1 to 5. -/
structure FiniteScores (res : SimilarityResult F) : Prop where
  mos : ∃ x, val res.moslqo = .fin x ∧ 1 ≤ x ∧ x ≤ 5
  vnsim : ∃ x, val res.vnsim = .fin x
  bands : ∀ a ∈ res.fvnsim, ∃ x, val a = .fin x ∧ |x| ≤ 2 ^ 18
  patches : ∀ q ∈ res.patchSims, (∃ x, val q.similarity = .fin x) ∧ ∀ a ∈ q.freqBandMeans, ∃ x, val a = .fin x ∧ |x| ≤ 2 ^ 18
  deviations : ∀ q ∈ res.patchSims, ∀ a ∈ q.freqBandStddevs, ∃ x, val a = .fin x ∧ 0 ≤ x ∧ x ≤ 2 ^ 21
  energies : ∀ q ∈ res.patchSims, ∀ a ∈ q.freqBandDegEnergy, ∃ x, val a = .fin x ∧ 0 ≤ x ∧ x ≤ 2 ^ 13

end Visqol
