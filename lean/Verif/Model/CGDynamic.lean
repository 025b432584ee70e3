import Verif.Model.DynamicODE
import Verif.Model.CGStatic

/-!
# Time steps with a linear solver that starts from a guess

`BackwardEulerODESolver` uses the loop of `NewtonRaphsonSolver` like `StaticODESolver`, so that its linear solver is handed the increment of the previous iteration too: `p_DX` is created and cleared once
per call of `NewtonRaphsonSolver::solve` (`NewtonRaphsonSolver.cpp:215-216`), before the first iteration of the time step, and handed to the solver by every iteration (296).  The scene is the one of
`DynamicODE`; the conjugate gradient is used with its methods `None`, `Identity` and `Diagonal`.
-/

set_option autoImplicit false

namespace Caribou

variable {K ι κ : Type*} [Field K] [Fintype ι] [Fintype κ] [DecidableEq ι]

/-- The Newton solver applied to a time step, with a linear solver that reads the previous content of its solution vector: the world is the one of `dynEnv` and `p_DX`.  `NewtonRaphsonSolver.cpp:293-308`. -/
def guessDynEnv (p : BEParams K) (S : DynScene K ι κ) (solver : Matrix ι ι K → (ι → K) → (ι → K) → Option (ι → K)) :
    NewtonEnv ((DynState K ι κ × Matrix ι ι K) × (ι → K)) (ι → K) K where
  rhs w := (w, dynRhs p S w.1.1)
  matrix w := ((w.1.1, dynMatrix p S w.1.1), w.2)
  analyze w := (w, true)
  factorize w := (w, true)
  solve w f := match solver w.1.2 f w.2 with
    | none => (w, none)
    | some da => ((w.1, da), some da)
  propagate w da := ((dynPropagate p S w.1.1 da, w.1.2), w.2)
  zero := 0
  add := (· + ·)
  norm2 v := some (dotProduct v v)

variable [LinearOrder K]

/-- `BackwardEulerODESolver::solve`, `BackwardEulerODESolver.cpp:55-72`, from positions `x` and velocities `v` with the conjugate gradient: the solver and the final state. -/
def cgDynSolve (n : NewtonParams K) (p : BEParams K) (S : DynScene K ι κ) (c : CGParams K) (precond : Matrix ι ι K → (ι → K) → ι → K) (st : NewtonState K) (x v : ι → K) :
    NewtonState K × DynState K ι κ :=
  let r := newtonSolve n (guessDynEnv p S (cgIncrement c precond)) true st (({ toBEState := beBegin x v, y := S.map x, w := S.J.mulVec v }, 0), 0)
  (r.1, r.2.1.1.1)

end Caribou
