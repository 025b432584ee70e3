import Mathlib.Data.Matrix.Mul
import Mathlib.Algebra.Order.Field.Basic

/-!
# Linear systems
-/

set_option autoImplicit false

namespace Caribou.Spec

variable {K ι : Type*} [Field K] [LinearOrder K] [Fintype ι]

/-- Squared residual of `x` as a solution of `A x = b`. -/
def residual2 (A : Matrix ι ι K) (b x : ι → K) : K := ∑ i, (b i - ∑ j, A i j * x j) ^ 2

/-- Symmetric positive definite. -/
structure IsSPD (A : Matrix ι ι K) : Prop where
  symm : ∀ i j, A i j = A j i
  pos : ∀ v : ι → K, v ≠ 0 → 0 < ∑ i, v i * ∑ j, A i j * v j

end Caribou.Spec
