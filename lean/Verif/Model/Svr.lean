import Verif.Model.Manager
import Verif.Model.DefaultSvr

/-!
# The default model of the fullband mode

`model/libsvm_nu_svr_model.txt`, the file named by the default of `--similarity_to_quality_model` (`visqol/src/command_line_utils.rs`), and
the prediction that `ffsvm` makes from it.
-/

namespace Visqol
variable {F : Type} [Flt F]

/-- A regression with an RBF kernel: `kernel_type rbf`, `gamma`, `rho` and the lines after `SV` (a coefficient and a vector each) of a
`LibSVM` file.  `ffsvm` (external) computes in single precision; this is the formula only. -/
structure RbfSvr (F : Type) where
  gamma : F
  rho : F
  vectors : List (F × List F)

/-- The decision function of `svm_type nu_svr` (`model/libsvm_nu_svr_model.txt:1`), evaluated at `support_vector_regression_model.rs:28-30`. -/
def RbfSvr.value (m : RbfSvr F) (v : List F) : F :=
  Flt.sum (m.vectors.map fun s =>
    s.1 * Flt.exp (-(m.gamma * Flt.sum (List.zipWith (fun a b => (a - b) * (a - b)) v s.2)))) - m.rho

/-- As the model behind the mapper (`support_vector_regression_model.rs:21-37`). -/
def RbfSvr.toModel (m : RbfSvr F) (numFeatures : Nat) : SvrModel F := ⟨numFeatures, fun v => some (some (m.value v))⟩

/-- `model/libsvm_nu_svr_model.txt:1-324`: `gamma 0.01` (line 3), `rho` (line 6) and the vectors. -/
def defaultSvr : RbfSvr F where
  gamma := 0.01
  rho := -3.6816207123583506
  vectors := defaultVectors.map fun r =>
    (Flt.ofInt r.1 / Flt.ofNat (10 ^ 18), r.2.map fun x => Flt.ofInt x / Flt.ofNat (10 ^ 11))

/-- The mapper of the fullband mode with the default model (`command_line_utils.rs:27`; 32 features). -/
def defaultModel : SvrModel F := defaultSvr.toModel 32

end Visqol
