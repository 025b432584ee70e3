import Verif.Model.CGComponent
import Verif.Spec.ConjugateGradient

/-!
# Specification vocabulary for the options of the conjugate gradient solver
-/

set_option autoImplicit false

namespace Caribou.Spec

/-- The documented names and methods, `ConjugateGradientSolver.inl:45-58`. -/
def documentedMethod : PrecondMethod → String
  | .none => "None"
  | .identity => "Identity"
  | .diagonal => "Diagonal"
  | .incompleteCholesky => "IncompleteCholesky"
  | .incompleteLU => "IncompleteLU"

/-- The documented default, `ConjugateGradientSolver.inl:47` and `ConjugateGradientSolver.h:47`. -/
def documentedDefault : PrecondMethod := .none

/-- The same words when capitals do not count. -/
def SameLetters (a b : String) : Prop := a.toList.map Char.toLower = b.toList.map Char.toLower

variable {K : Type*} [Field K]

/-- The matrix of a system whose degrees of freedom `fixed` do not move: their lines and columns are those of the identity. -/
def constrainedSystem (fixed : ℕ → Bool) (N : SystemMatrix K) : SystemMatrix K :=
  { N with entry := fun i j => if fixed i || fixed j then (if i = j then 1 else 0) else N.entry i j }

/-- The product with the matrix `N` followed by the projection on the degrees of freedom which can move. -/
def projectedSystem (fixed : ℕ → Bool) (N : SystemMatrix K) : SystemMatrix K :=
  { N with entry := fun i j => if fixed i then 0 else N.entry i j }

/-- The vector vanishes on the degrees of freedom which do not move. -/
def VanishesOn (fixed : ℕ → Bool) (v : List K) : Prop := ∀ i, fixed i = true → v.getD i 0 = 0

/-- For this matrix, the factorization is the product with a symmetric positive definite matrix. -/
def ActsAsSPD [LinearOrder K] (P : IncompletePrecond K) (M : SystemMatrix K) : Prop :=
  ∃ D : Matrix (Fin M.dim) (Fin M.dim) K, IsSPD D ∧
    ∀ (r : Fin M.dim → K) (i : Fin M.dim), (P.apply M (List.ofFn r)).getD i 0 = ∑ j, D i j * r j

end Caribou.Spec
