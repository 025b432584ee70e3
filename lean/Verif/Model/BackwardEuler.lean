import Verif.Model.Newton
import Mathlib.Data.Matrix.Mul

/-!
# Model of `BackwardEulerODESolver`

The scene is a mass matrix, a damping matrix, a force as a function of the positions and the derivative of the force (the
matrix `K` in the sign convention of the framework: `addDForce` adds `kFactor * K * dx`).  All degrees of freedom are in one
vector; mappings, projective constraints and constraint solvers are not modelled (none are present).  `double` is a field.
-/

set_option autoImplicit false

namespace Caribou

/-- The time step and the data `rayleigh_mass`, `rayleigh_stiffness`, `BackwardEulerODESolver.cpp:43-52`. -/
structure BEParams (K : Type*) where
  h : K
  rayleighMass : K
  rayleighStiffness : K

/-- The mechanical content of the scene. -/
structure BEScene (K ι : Type*) where
  M : Matrix ι ι K
  B : Matrix ι ι K
  force : (ι → K) → ι → K
  stiff : (ι → K) → Matrix ι ι K

/-- The vectors `x`, `v`, `p_a_id`, `p_previous_x_id`, `p_previous_v_id`. -/
structure BEState (K ι : Type*) where
  x : ι → K
  v : ι → K
  a : ι → K
  x0 : ι → K
  v0 : ι → K

variable {K ι : Type*} [Field K] [Fintype ι]

/-- `solve` before the Newton iterations, `BackwardEulerODESolver.cpp:55-69`. -/
def beBegin (x v : ι → K) : BEState K ι := { x := x, v := v, a := 0, x0 := x, v0 := v }

/-- `MechanicalAddMBKdxVisitor` with the three factors of the mechanical parameters, at positions `x`. -/
def addMBKdx (S : BEScene K ι) (x : ι → K) (m b k : K) (dx : ι → K) : ι → K :=
  m • S.M.mulVec dx + b • S.B.mulVec dx + k • (S.stiff x).mulVec dx

/-- `assemble_rhs_vector`, `BackwardEulerODESolver.cpp:80-156`. -/
def beRhs (p : BEParams K) (S : BEScene K ι) (s : BEState K ι) : ι → K :=
  S.force s.x + addMBKdx S s.x (-p.rayleighMass) (-1) p.rayleighStiffness s.v0
    + addMBKdx S s.x (-(1 + p.h * p.rayleighMass)) (-p.h) (p.h * p.rayleighStiffness) s.a

/-- `assemble_system_matrix`, `BackwardEulerODESolver.cpp:160-199`. -/
def beMatrix (p : BEParams K) (S : BEScene K ι) (s : BEState K ι) : Matrix ι ι K :=
  (1 + p.h * p.rayleighMass) • S.M + p.h • S.B + (-p.h * (p.h + p.rayleighStiffness)) • S.stiff s.x

/-- `propagate_solution_increment`, `BackwardEulerODESolver.cpp:202-242`. -/
def bePropagate (p : BEParams K) (s : BEState K ι) (da : ι → K) : BEState K ι :=
  let a := s.a + da
  let v := s.v0 + p.h • a
  { s with a := a, v := v, x := s.x0 + p.h • v }

/-- The Newton solver applied to this scene: the world is the state and the assembled matrix, `solver A f` is the linear
solver. -/
def beEnv (p : BEParams K) (S : BEScene K ι) (solver : Matrix ι ι K → (ι → K) → Option (ι → K)) :
    NewtonEnv (BEState K ι × Matrix ι ι K) (ι → K) K where
  rhs w := (w, beRhs p S w.1)
  matrix w := (w.1, beMatrix p S w.1)
  analyze w := (w, true)
  factorize w := (w, true)
  solve w f := (w, solver w.2 f)
  propagate w da := (bePropagate p w.1 da, w.2)
  zero := 0
  add := (· + ·)
  norm2 v := some (dotProduct v v)

/-- `BackwardEulerODESolver::solve`, `BackwardEulerODESolver.cpp:55-72`. -/
def beSolve [LinearOrder K] (n : NewtonParams K) (p : BEParams K) (S : BEScene K ι)
    (solver : Matrix ι ι K → (ι → K) → Option (ι → K)) (c : NewtonState K) (x v : ι → K) : NewtonState K × BEState K ι :=
  let r := newtonSolve n (beEnv p S solver) true c (beBegin x v, 0)
  (r.1, r.2.1.1)

end Caribou
