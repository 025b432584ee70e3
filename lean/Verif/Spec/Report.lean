import Mathlib.LinearAlgebra.UnitaryGroup
import Mathlib.LinearAlgebra.Matrix.PosDef
import Mathlib.LinearAlgebra.Matrix.Notation

/-!
# Specification of the reported quantities (C90)
-/

set_option autoImplicit false

namespace Caribou.Spec

/-- What the eigenvalue solver returns for a symmetric matrix: its eigenvalues, with an orthonormal basis of eigenvectors. -/
def AreEigenvalues {n : ℕ} (A : Matrix (Fin n) (Fin n) ℝ) (values : Fin n → ℝ) : Prop :=
  ∃ U : Matrix (Fin n) (Fin n) ℝ, U.transpose * U = 1 ∧ U * U.transpose = 1 ∧ A = U * Matrix.diagonal values * U.transpose

/-- The condition number of a symmetric positive definite matrix: the largest ratio of the energies of two unit vectors. -/
def IsConditionNumber {n : ℕ} (A : Matrix (Fin n) (Fin n) ℝ) (κ : ℝ) : Prop :=
  IsGreatest { r | ∃ x y : Fin n → ℝ, x ⬝ᵥ x = 1 ∧ y ⬝ᵥ y = 1 ∧ r = (x ⬝ᵥ A.mulVec x) / (y ⬝ᵥ A.mulVec y) } κ

end Caribou.Spec
