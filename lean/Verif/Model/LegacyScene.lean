import Verif.Model.LegacyStatic
import Verif.Model.StaticODE

/-!
# `LegacyStaticODESolver` in a scene

The scene is the one of `StaticODE`, the linear solver one of the direct solvers of the plugin, called through the interface of SOFA: `matrix = MechanicalMatrix::K * -1.0` assembles the matrix with
`EigenSolver::setSystemMBKMatrix` (`LegacyStaticODESolver.cpp:189-191`, `EigenSolver.inl:20-150`), in the order of `StaticODESolver::assemble_system_matrix`.
-/

set_option autoImplicit false

namespace Caribou

variable {K ι κ : Type*} [Field K] [Fintype ι] [Fintype κ] [DecidableEq ι]

/-- What `LegacyStaticODESolver::solve` calls in this scene, `LegacyStaticODESolver.cpp:145-152,173-230`.  `EigenSolver::solveSystem` (`EigenSolver.inl:190-205`) only copies the solution to `dx` when the
linear solver has succeeded; otherwise `dx` keeps what it was, and the solver of SOFA is not told. -/
def legacyScene (S : StaticScene K ι κ) (solver : Matrix ι ι K → (ι → K) → Option (ι → K)) : LegacyEnv (StaticWorld K ι κ) (ι → K) K where
  force w := staticRhs S w
  solve w dx f := (solver (staticMatrix S w) f).getD dx
  propagate w dx := staticPropagate S w dx
  zero := 0
  add := (· + ·)
  norm2 v := some (dotProduct v v)

end Caribou
