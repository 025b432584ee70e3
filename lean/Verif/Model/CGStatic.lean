import Verif.Model.StaticODE
import Verif.Model.ConjugateGradient

/-!
# Static solves with a linear solver that starts from a guess

The vector of increments `p_DX` is created and cleared once per call of `NewtonRaphsonSolver::solve` (`NewtonRaphsonSolver.cpp:215-216`) and handed to the linear solver by
every iteration (296) without being cleared again: an iterative solver starts from the increment of the previous iteration.  The scene is the one of `StaticODE`.  The
conjugate gradient is used with its methods `None`, `Identity` and `Diagonal`, for which `analyze_pattern` and `factorize` always report success.
-/

set_option autoImplicit false

namespace Caribou

variable {K ι κ : Type*} [Field K] [Fintype ι] [Fintype κ] [DecidableEq ι]

/-- The Newton solver applied to a scene, with a linear solver that reads the previous content of its solution vector: the world is the one of `staticEnv` and `p_DX`.
`NewtonRaphsonSolver.cpp:293-308`.  After a failure (`none`) the loop is left and `p_DX` is not read again, so that its content is not modelled. -/
def guessEnv (S : StaticScene K ι κ) (solver : Matrix ι ι K → (ι → K) → (ι → K) → Option (ι → K)) : NewtonEnv (StaticWorld K ι κ × (ι → K)) (ι → K) K where
  rhs w := (w, staticRhs S w.1)
  matrix w := ({ w.1 with A := staticMatrix S w.1 }, w.2)
  analyze w := (w, true)
  factorize w := (w, true)
  solve w f := match solver w.1.A f w.2 with
    | none => (w, none)
    | some dx => ((w.1, dx), some dx)
  propagate w dx := (staticPropagate S w.1 dx, w.2)
  zero := 0
  add := (· + ·)
  norm2 v := some (dotProduct v v)

variable [LinearOrder K]

/-- `ConjugateGradientSolver::solve(F, X)`, `ConjugateGradientSolver.inl:462-483`, as a solver of `guessEnv`: the solution counts when the method reports convergence. -/
def cgIncrement (c : CGParams K) (precond : Matrix ι ι K → (ι → K) → ι → K) (A : Matrix ι ι K) (f guess : ι → K) : Option (ι → K) :=
  let r := cgSolve c (fun v => A.mulVec v) (precond A) f guess
  if r.converged then r.x else none

/-- The method `None` or `Identity`, `ConjugateGradientSolver.inl:470-471`. -/
def cgPlain (_A : Matrix ι ι K) (r : ι → K) : ι → K := r

/-- `StaticODESolver::solve` from positions `x` with the conjugate gradient: the solver and the final positions. -/
def cgStaticSolve (n : NewtonParams K) (S : StaticScene K ι κ) (c : CGParams K) (precond : Matrix ι ι K → (ι → K) → ι → K) (st : NewtonState K) (x : ι → K) :
    NewtonState K × StaticWorld K ι κ :=
  let r := newtonSolve n (guessEnv S (cgIncrement c precond)) true st (⟨x, S.map x, 0⟩, 0)
  (r.1, r.2.1.1)

end Caribou
