import Verif.Model.LegacyStatic
import Verif.Model.CGStatic

/-!
# `LegacyStaticODESolver` with the conjugate gradient of the plugin

The scene is the one of `StaticODE`.  A vector which is not finite is `none`.
-/

set_option autoImplicit false

namespace Caribou

variable {K ι κ : Type*} [Field K] [Fintype ι] [Fintype κ] [DecidableEq ι]

/-- `propagateDxAndResetDf`, `addMBKdx` with the factors of `MechanicalMatrix::K * -1.0` and `projectResponse`, `ConjugateGradientSolver.inl:221-225,246-251`: no matrix is built; the product with the
mapped object goes through `applyJ` and `applyJT`. -/
def freeProduct (S : StaticScene K ι κ) (w : StaticWorld K ι κ) (v : ι → K) : ι → K :=
  projectResponse S.fixed fun i => -(S.stiff w.x).mulVec v i - S.J.transpose.mulVec ((S.mappedStiff w.y).mulVec (S.J.mulVec v)) i

variable [LinearOrder K]

/-- `ConjugateGradientSolver::solveSystem` with the method `None`, `ConjugateGradientSolver.inl:154-166`: the loop works on `dx` itself. -/
def legacyNone (S : StaticScene K ι κ) (c : CGParams K) (w : StaticWorld K ι κ) (f dx : ι → K) : CGResult K ι := cgFreeSolve c (freeProduct S w) f dx

/-- `ConjugateGradientSolver::solveSystem` with a preconditioner, `ConjugateGradientSolver.inl:167-170`, and `EigenSolver::solveSystem`, `EigenSolver.inl:190-205`: the solution is copied to `dx` when the
method reports convergence. -/
def legacyAssembled (S : StaticScene K ι κ) (c : CGParams K) (precond : Matrix ι ι K → (ι → K) → ι → K) (w : StaticWorld K ι κ) (f dx : ι → K) : CGResult K ι :=
  let r := cgSolve c (fun v => (staticMatrix S w).mulVec v) (precond (staticMatrix S w)) f dx
  { r with x := if r.converged then r.x else some dx }

/-- What `LegacyStaticODESolver::solve` calls, `LegacyStaticODESolver.cpp:145-152,173-230`; `run w f dx` is the linear solver. -/
def legacyCGEnv (S : StaticScene K ι κ) (run : StaticWorld K ι κ → (ι → K) → (ι → K) → CGResult K ι) : LegacyEnv (Option (StaticWorld K ι κ)) (Option (ι → K)) K where
  force w := w.map (staticRhs S)
  solve w dx f := match w, dx, f with
    | some w, some dx, some f => (run w f dx).x
    | _, _, _ => none
  propagate w dx := match w, dx with
    | some w, some dx => some (staticPropagate S w dx)
    | _, _ => none
  zero := some 0
  add a b := match a, b with
    | some a, some b => some (a + b)
    | _, _ => none
  norm2 v := v.map fun v => dotProduct v v

/-- An entry of `iterative_linear_solver_squared_rhs_norms()` and of `iterative_linear_solver_squared_residuals()`, `LegacyStaticODESolver.h:50-62`. -/
structure CGEntry (K : Type*) where
  rhs : Option K
  residuals : List (Option K)
  deriving DecidableEq

/-- What an iteration records, `LegacyStaticODESolver.cpp:242-246`; `s` are the variables at its beginning, `initial` is `p_squared_initial_residual`. -/
def legacyCGRecord (run : StaticWorld K ι κ → (ι → K) → (ι → K) → CGResult K ι) (initial : Option K) (s : LegacyLoop (Option (StaticWorld K ι κ)) (Option (ι → K)) K) : CGEntry K where
  rhs := if s.n = 0 then initial else s.residuals[s.n - 1]?.join
  residuals := match s.world, s.dx, s.force with
    | some w, some dx, some f => (run w f dx).residuals
    | _, _, _ => []

/-- The loop with its records, `LegacyStaticODESolver.cpp:170-311`. -/
def legacyCGLoop (p : LegacyParams K) (S : StaticScene K ι κ) (run : StaticWorld K ι κ → (ι → K) → (ι → K) → CGResult K ι) (initial : Option K) :
    ℕ → LegacyLoop (Option (StaticWorld K ι κ)) (Option (ι → K)) K → List (CGEntry K) → LegacyLoop (Option (StaticWorld K ι κ)) (Option (ι → K)) K × List (CGEntry K)
  | 0, s, e => (s, e)
  | fuel + 1, s, e =>
    if s.converged then (s, e)
    else
      let s' := legacyIteration p (legacyCGEnv S run) s
      let e' := e ++ [legacyCGRecord run initial s]
      if s'.converged || s'.diverged then (s', e') else legacyCGLoop p S run initial fuel s' e'

/-- `solve`, `LegacyStaticODESolver.cpp:56-328`, from positions `x`; `dx` is what a former call left.  Returns the loop and the records. -/
def legacyCGSolve (p : LegacyParams K) (S : StaticScene K ι κ) (run : StaticWorld K ι κ → (ι → K) → (ι → K) → CGResult K ι) (dx x : ι → K) :
    LegacyLoop (Option (StaticWorld K ι κ)) (Option (ι → K)) K × List (CGEntry K) :=
  legacyCGLoop p S run ((legacyCGEnv S run).norm2 ((legacyCGEnv S run).force (some ⟨x, S.map x, 0⟩))) p.iterations
    (legacyStart p (legacyCGEnv S run) (some dx) (some ⟨x, S.map x, 0⟩)) []

end Caribou
