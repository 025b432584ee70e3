import Verif.Model.Newton
import Mathlib.Data.Matrix.Mul

/-!
# Model of `StaticODESolver`

The scene has one top level mechanical object with degrees of freedom `ι` and one mechanical object with degrees of freedom `κ`
mapped from it.  Force fields are forces as functions of the positions and their derivatives (`K` in the sign convention of the
framework).  The projective constraints are fixed degrees of freedom, as with `FixedConstraint`.  The Jacobian of the mapping is
constant, as for the mapping of the plugin.  Constraint solvers are not modelled.
-/

set_option autoImplicit false

namespace Caribou

/-- The mechanical content of the scene: forces on the top level object, the mapping and its Jacobian, forces on the mapped
object and the fixed degrees of freedom. -/
structure StaticScene (K ι κ : Type*) where
  force : (ι → K) → ι → K
  stiff : (ι → K) → Matrix ι ι K
  map : (ι → K) → κ → K
  J : Matrix κ ι K
  mappedForce : (κ → K) → κ → K
  mappedStiff : (κ → K) → Matrix κ κ K
  fixed : ι → Bool

/-- The positions of the two objects and the global matrix. -/
structure StaticWorld (K ι κ : Type*) where
  x : ι → K
  y : κ → K
  A : Matrix ι ι K

variable {K ι κ : Type*} [Field K] [Fintype κ]

/-- `projectResponse` of the constraints, `StaticODESolver.cpp:49-53`: the entries of fixed degrees of freedom are set to zero. -/
def projectResponse (fixed : ι → Bool) (f : ι → K) : ι → K := fun i => if fixed i then 0 else f i

/-- `assemble_rhs_vector`, `StaticODESolver.cpp:34-58`: forces of the top level object and, through `applyJT`, of the mapped
one. -/
def staticRhs (S : StaticScene K ι κ) (w : StaticWorld K ι κ) : ι → K :=
  projectResponse S.fixed fun i => S.force w.x i + S.J.transpose.mulVec (S.mappedForce w.y) i

variable [DecidableEq ι]

/-- `ConstrainGlobalMatrix`, `Visitor/ConstrainGlobalMatrix.cpp:11-14`, for fixed degrees of freedom: `applyConstraint` clears the
row and the column and writes one on the diagonal. -/
def constrainMatrix (fixed : ι → Bool) (A : Matrix ι ι K) : Matrix ι ι K := fun i j =>
  if fixed i || fixed j then (if i = j then 1 else 0) else A i j

/-- `assemble_system_matrix`, `StaticODESolver.cpp:61-96`, with `kFactor = -1`: assembly of the top level object (73-75),
constraints (77-79), then the contribution of the mapped object (87-89). -/
def staticMatrix (S : StaticScene K ι κ) (w : StaticWorld K ι κ) : Matrix ι ι K :=
  constrainMatrix S.fixed (-(S.stiff w.x)) + S.J.transpose * -(S.mappedStiff w.y) * S.J

/-- `propagate_solution_increment`, `StaticODESolver.cpp:99-125`: the increment is added to the positions, then the mapped
positions are updated. -/
def staticPropagate (S : StaticScene K ι κ) (w : StaticWorld K ι κ) (dx : ι → K) : StaticWorld K ι κ :=
  { w with x := w.x + dx, y := S.map (w.x + dx) }

/-- The Newton solver applied to this scene: `solver A f` is the linear solver (`none`: it reports a failure). -/
def staticEnv [Fintype ι] (S : StaticScene K ι κ) (solver : Matrix ι ι K → (ι → K) → Option (ι → K)) :
    NewtonEnv (StaticWorld K ι κ) (ι → K) K where
  rhs w := (w, staticRhs S w)
  matrix w := { w with A := staticMatrix S w }
  analyze w := (w, true)
  factorize w := (w, true)
  solve w f := (w, solver w.A f)
  propagate w dx := staticPropagate S w dx
  zero := 0
  add := (· + ·)
  norm2 v := some (dotProduct v v)

/-- `StaticODESolver::solve`, that is `NewtonRaphsonSolver::solve`, from positions `x`: the solver and the final positions. -/
def staticSolve [Fintype ι] [LinearOrder K] (n : NewtonParams K) (S : StaticScene K ι κ)
    (solver : Matrix ι ι K → (ι → K) → Option (ι → K)) (c : NewtonState K) (x : ι → K) : NewtonState K × StaticWorld K ι κ :=
  let r := newtonSolve n (staticEnv S solver) true c ⟨x, S.map x, 0⟩
  (r.1, r.2.1)

end Caribou
