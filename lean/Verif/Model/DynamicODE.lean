import Verif.Model.BackwardEuler
import Verif.Model.StaticODE

/-!
# Model of `BackwardEulerODESolver` with projective constraints and mappings

As in `StaticODE`: one top level mechanical object with degrees of freedom `ι`, one mapped from it with degrees of freedom `κ` and a
constant Jacobian, fixed degrees of freedom as projective constraints.  Masses and damping are on the top level object.  Constraint
solvers are not modelled (none are present).
-/

set_option autoImplicit false

namespace Caribou

/-- The vectors of `BEState` and the positions and velocities of the mapped object. -/
structure DynState (K ι κ : Type*) extends BEState K ι where
  y : κ → K
  w : κ → K

/-- The mechanical content of the scene.  `mappedMBK` is what `MechanicalAddMBKdxVisitor` computes on the mapped object with the vectors
`p_previous_v_id` and `p_a_id` of that object (`BackwardEulerODESolver.cpp:125-142`), which the framework keeps: any function. -/
structure DynScene (K ι κ : Type*) extends BEScene K ι where
  map : (ι → K) → κ → K
  J : Matrix κ ι K
  mappedForce : (κ → K) → κ → K
  mappedStiff : (κ → K) → Matrix κ κ K
  mappedMBK : BEParams K → DynState K ι κ → κ → K
  fixed : ι → Bool

variable {K ι κ : Type*} [Field K] [Fintype ι] [Fintype κ]

/-- `assemble_rhs_vector`, `BackwardEulerODESolver.cpp:80-156`: the terms of `beRhs`, those of the mapped object through `applyJT`
(101-103, 125-142), then the projection of the constraints (147-149). -/
def dynRhs (p : BEParams K) (S : DynScene K ι κ) (s : DynState K ι κ) : ι → K :=
  projectResponse S.fixed fun i => beRhs p S.toBEScene s.toBEState i +
    S.J.transpose.mulVec (S.mappedForce s.y + S.mappedMBK p s) i

/-- `assemble_system_matrix`, `BackwardEulerODESolver.cpp:160-199`: assembly of the top level object (177-179), constraints (181-183),
then the contribution of the mapped object (191-193). -/
def dynMatrix [DecidableEq ι] (p : BEParams K) (S : DynScene K ι κ) (s : DynState K ι κ) : Matrix ι ι K :=
  constrainMatrix S.fixed (beMatrix p S.toBEScene s.toBEState) +
    S.J.transpose * ((-p.h * (p.h + p.rayleighStiffness)) • S.mappedStiff s.y) * S.J

/-- `propagate_solution_increment`, `BackwardEulerODESolver.cpp:202-242`: as `bePropagate`, then positions and velocities of the mapped
object (238-240). -/
def dynPropagate (p : BEParams K) (S : DynScene K ι κ) (s : DynState K ι κ) (da : ι → K) : DynState K ι κ :=
  let t := bePropagate p s.toBEState da
  { toBEState := t, y := S.map t.x, w := S.J.mulVec t.v }

/-- The Newton solver applied to this scene. -/
def dynEnv [DecidableEq ι] (p : BEParams K) (S : DynScene K ι κ) (solver : Matrix ι ι K → (ι → K) → Option (ι → K)) :
    NewtonEnv (DynState K ι κ × Matrix ι ι K) (ι → K) K where
  rhs w := (w, dynRhs p S w.1)
  matrix w := (w.1, dynMatrix p S w.1)
  analyze w := (w, true)
  factorize w := (w, true)
  solve w f := (w, solver w.2 f)
  propagate w da := (dynPropagate p S w.1 da, w.2)
  zero := 0
  add := (· + ·)
  norm2 v := some (dotProduct v v)

/-- `BackwardEulerODESolver::solve`, `BackwardEulerODESolver.cpp:55-72`, on a scene at positions `x` and `y` with velocities `v` and
`w`. -/
def dynSolve [DecidableEq ι] [LinearOrder K] (n : NewtonParams K) (p : BEParams K) (S : DynScene K ι κ)
    (solver : Matrix ι ι K → (ι → K) → Option (ι → K)) (c : NewtonState K) (x v : ι → K) (y w : κ → K) :
    NewtonState K × DynState K ι κ :=
  let r := newtonSolve n (dynEnv p S solver) true c ({ toBEState := beBegin x v, y := y, w := w }, 0)
  (r.1, r.2.1.1)

end Caribou
