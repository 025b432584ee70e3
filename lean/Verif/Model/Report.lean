import Mathlib.Algebra.Order.Field.Basic
import Mathlib.Data.List.MinMax
import Mathlib.Data.Real.Basic

/-!
# Quantities reported by the force fields: condition number
-/

set_option autoImplicit false

namespace Caribou

/-- `cond`, `HyperelasticForcefield.inl:591-598`, `HexahedronElasticForce.cpp:568-577`; `values` are the eigenvalues, in the
increasing order of `Eigen::SelfAdjointEigenSolver`; `minCoeff` and `maxCoeff` of an empty vector are not defined (zero here). -/
noncomputable def condReported {n : ℕ} (values : Fin n → ℝ) : ℝ :=
  let v := List.ofFn values
  (v.foldr min (v.headD 0)) / (v.foldr max (v.headD 0))

end Caribou
