import Verif.Spec.ConjugateGradient
import Mathlib.Data.Real.Basic
import Mathlib.LinearAlgebra.Span.Basic
import Mathlib.Data.Matrix.Mul

/-!
# Specification vocabulary for the rate of convergence of the conjugate gradient
-/

set_option autoImplicit false

namespace Caribou.Spec

variable {ι : Type*} [Fintype ι]

/-- The eigenvalues of the preconditioned matrix are between `lo` and `hi`, in terms of energies: `M` is what the preconditioner applies to a residual `r`. -/
def SpectrumWithin (A M : Matrix ι ι ℝ) (lo hi : ℝ) : Prop :=
  ∀ r : ι → ℝ, lo * (r ⬝ᵥ M.mulVec r) ≤ M.mulVec r ⬝ᵥ A.mulVec (M.mulVec r) ∧ M.mulVec r ⬝ᵥ A.mulVec (M.mulVec r) ≤ hi * (r ⬝ᵥ M.mulVec r)

/-- The energy of the error of `x`, when `y` is the solution. -/
def errorEnergy (A : Matrix ι ι ℝ) (y x : ι → ℝ) : ℝ := (x - y) ⬝ᵥ A.mulVec (x - y)

/-- The directions which can be explored by `k` products with the matrix and the preconditioner. -/
def krylov [DecidableEq ι] (A M : Matrix ι ι ℝ) (r : ι → ℝ) (k : ℕ) : Submodule ℝ (ι → ℝ) :=
  Submodule.span ℝ {v | ∃ j < k, v = ((M * A) ^ j).mulVec (M.mulVec r)}

end Caribou.Spec
