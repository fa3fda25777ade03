import Verif.Model.Manager

/-! # Specification vocabulary: call histories of one manager -/

namespace Visqol
variable {F : Type} [Flt F] [RustFft F]

/-- The value a call returns, without the manager left behind. -/
def returned {σ α : Type} (x : M (σ × α)) : M α := x.map Prod.snd

/-- `After p m₀ m`: `m` is a state in which `m₀` can be after any finite number of calls of `run` and `compute_results`, with
any files and signals.  What a failing call leaves in the filterbank is unconstrained, except that no code ever writes the
minimum frequency. -/
inductive After (p : Profile) (m₀ : Manager F) : Manager F → Prop where
  | fresh : After p m₀ m₀
  | run {m m' : Manager F} {world : World F} {r d : String} {res : SimilarityResult F} :
      After p m₀ m → m.run p world r d = .ok (m', res) → After p m₀ m'
  | compute {m m' : Manager F} {ref deg : AudioSignal F} {res : SimilarityResult F} :
      After p m₀ m → m.computeResults p ref deg = .ok (m', res) → After p m₀ m'
  | failedRun {m : Manager F} {world : World F} {r d : String} {e : Fail} {fb : FilterBank F} :
      After p m₀ m → m.run p world r d = .error e → fb.minFreq = m.filterBank.minFreq →
      After p m₀ { m with filterBank := fb }
  | failedCompute {m : Manager F} {ref deg : AudioSignal F} {e : Fail} {fb : FilterBank F} :
      After p m₀ m → m.computeResults p ref deg = .error e → fb.minFreq = m.filterBank.minFreq →
      After p m₀ { m with filterBank := fb }

end Visqol
