import Verif.Model.CGComponent

/-!
# `assemble` of the Python binding of `ConjugateGradientSolver`

A script can assemble the system of the scene with factors of its choice, `SofaCaribou/Python/Solver/ConjugateGradientSolver.h:20-26`, between the
solves made by the solvers of SOFA.  The function `A` of the binding (18) is left out: pybind11 has no conversion for the type it returns.
-/

set_option autoImplicit false

namespace Caribou

variable {K : Type*} [Field K] [LinearOrder K]

/-- `assemble(m, b, k)`, `Python/Solver/ConjugateGradientSolver.h:20-26`, which is `EigenSolver::assemble`, `EigenSolver.inl:30-110`: `P` is the matrix
assembled from the scene with these factors.  It replaces the matrix of the component (65, 101) and sets the pointer (106-107); the accessor
which is returned is dropped. -/
def CGComponent.pyAssemble (s : CGComponent K) (P : SystemMatrix K) : CGComponent K :=
  { s with base := { s.base with A := P, hasPointer := true } }

/-- What happens to the component during a simulation with a script: a solve (the matrix assembled from the scene, the product made by its
visitors, the objects and the two vectors), or a call of `assemble` by the script. -/
inductive PyEvent (K : Type*) where
  | solve (M op : SystemMatrix K) (objects : List (MechObject K)) (bId xId : ℕ)
  | assemble (P : SystemMatrix K)

/-- The objects after each solve of a simulation; an exception ends it. -/
def CGComponent.pyRun (c : CGParams K) (chol lu : IncompletePrecond K) :
    CGComponent K → List (PyEvent K) → Outcome (List (List (MechObject K)))
  | _, [] => .ok []
  | s, .assemble P :: es => (s.pyAssemble P).pyRun c chol lu es
  | s, .solve M op objects bId xId :: es =>
    match s.solveStep c chol lu M op objects bId xId with
    | .ok r =>
      match r.1.pyRun c chol lu es with
      | .ok l => .ok (r.2 :: l)
      | .throws l => .throws (r.2 :: l)
      | .hangs => .hangs
      | .undefined => .undefined
    | .throws r => .throws [r.2]
    | .hangs => .hangs
    | .undefined => .undefined

end Caribou
