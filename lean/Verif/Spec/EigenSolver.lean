import Verif.Model.EigenSolver

/-!
# Specification vocabulary for the linear solvers used by SOFA
-/

set_option autoImplicit false

namespace Caribou.Spec

variable {K : Type*} [Field K]

/-- `x` has the size of the matrix and `M x = b`. -/
def SolvesSystem (M : SystemMatrix K) (x b : List K) : Prop :=
  x.length = M.dim ∧ ∀ i < M.dim, ∑ j ∈ Finset.range M.dim, M.entry i j * x.getD j 0 = b.getD i 0

/-- The symmetric matrix with the lower triangle of `M`. -/
def lowerSymmetric (M : SystemMatrix K) : SystemMatrix K :=
  { M with entry := fun i j => if j ≤ i then M.entry i j else M.entry j i }

/-- A correct LU decomposition: whenever it reports success its solutions solve the system. -/
def IsLU (E : Decomposition K) : Prop :=
  ∀ M b, E.factors M = true → b.length = M.dim → SolvesSystem M (E.solution M b) b

/-- A correct Cholesky decomposition (`Eigen::Lower`): it only reads the lower triangle of the matrix. -/
def IsCholesky (E : Decomposition K) : Prop :=
  ∀ M b, E.factors M = true → b.length = M.dim → SolvesSystem (lowerSymmetric M) (E.solution M b) b

/-- The matrix is symmetric. -/
def IsSymmetricMatrix (M : SystemMatrix K) : Prop := ∀ i < M.dim, ∀ j < M.dim, M.entry i j = M.entry j i

/-- Two matrices of the same size and pattern. -/
def SamePattern (M N : SystemMatrix K) : Prop :=
  M.dim = N.dim ∧ ∀ i < M.dim, ∀ j < M.dim, M.stored i j = N.stored i j

/-- All vectors of all objects have one entry per degree of freedom. -/
def SizedObjects (objects : List (MechObject K)) : Prop := ∀ o ∈ objects, ∀ id, (o.vec id).length = o.dofs

/-- The two lists have the same objects but for the vectors `id`. -/
def SameButVec (id : ℕ) (objects objects' : List (MechObject K)) : Prop :=
  List.Forall₂ (fun o o' => o'.dofs = o.dofs ∧ ∀ k, k ≠ id → o'.vec k = o.vec k) objects objects'

end Caribou.Spec
