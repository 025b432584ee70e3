import Mathlib.Data.List.Basic
import Mathlib.Data.Nat.Basic

/-!
# What the solvers tell the timer of SOFA

The calls of `AdvancedTimer::stepBegin`, `stepEnd` and `valSet` and the life of the `ScopedAdvancedTimer` objects, in the order of the execution.  The numbers which decide the branches (norms, answers of the
linear solver) are arbitrary; calls of other components are parameters.
-/

set_option autoImplicit false

namespace Caribou

/-- A call of the timer. -/
inductive TimerEvent
  | opens (step : String)
  | closes (step : String)
  | value (name : String) (n : ℕ)
  deriving DecidableEq

/-- A `ScopedAdvancedTimer`: the destructor ends the step, also if the block is left by `break` or `return`. -/
def scopedTimer (step : String) (body : List TimerEvent) : List TimerEvent := TimerEvent.opens step :: (body ++ [TimerEvent.closes step])

/-- `x--` of an unsigned number which wraps at `w`. -/
def unsignedPred (w n : ℕ) : ℕ := if n = 0 then w - 1 else n - 1

/-- `x + 1` of an unsigned number which wraps at `w`. -/
def unsignedSucc (w n : ℕ) : ℕ := if n = w - 1 then 0 else n + 1

/-- The loop of the conjugate gradient, `SofaCaribou/Solver/ConjugateGradientSolver.inl:243-281` and `350-384`: the events and the final `iteration_number`.  `small k` says whether the squared norm of the
residual is under the threshold after `k` iterations, `inner k` are the events of the components called in the iteration `k`; the second number counts the iterations which are left. -/
def cgTimerLoop (small : ℕ → Bool) (inner : ℕ → List TimerEvent) : ℕ → ℕ → List TimerEvent × ℕ
  | n, 0 => ([], n)
  | n, left + 1 =>
    let step := TimerEvent.opens "cg_iteration" :: (inner n ++ [TimerEvent.closes "cg_iteration"])
    if small (n + 1) then (step, n + 1)
    else
      let r := cgTimerLoop small inner (n + 1) left
      (step ++ r.1, r.2)

/-- The two functions `solve` of the conjugate gradient, `SofaCaribou/Solver/ConjugateGradientSolver.inl:201-296` and `313-400`: the first test jumps to the label `end`, behind the decrement of the counter.
The calls of the force fields for the first residual are not part of it (`solveEvents`). -/
def cgTimer (w : ℕ) (small : ℕ → Bool) (inner : ℕ → List TimerEvent) (maxIterations : ℕ) : List TimerEvent :=
  if small 0 then [TimerEvent.value "nb_iterations" (unsignedSucc w 0)]
  else
    let r := cgTimerLoop small inner 0 maxIterations
    r.1 ++ [TimerEvent.value "nb_iterations" (unsignedSucc w (unsignedPred w r.2))]

/-- What happens in an iteration of `NewtonRaphsonSolver::solve`: the answers of the linear solver, whether a criterion ends the loop, whether it is one of convergence, and the events of the called components. -/
structure NewtonTimed where
  analyze : Bool
  analyzed : Bool
  factorized : Bool
  solved : Bool
  stops : Bool
  converges : Bool
  build : List TimerEvent
  analysis : List TimerEvent
  factorization : List TimerEvent
  solution : List TimerEvent
  propagation : List TimerEvent
  force : List TimerEvent

/-- The body of the loop, `SofaCaribou/Ode/NewtonRaphsonSolver.cpp:249-333`, within the step `NewtonStep`: the events, and whether the iteration is completed. -/
def newtonTimedBody (several : Bool) (o : NewtonTimed) : List TimerEvent × Bool :=
  let e1 := scopedTimer "MBKBuild" o.build
  let e2 := e1 ++ if o.analyze then scopedTimer "MBKAnalyze" o.analysis else []
  if o.analyze && !o.analyzed then (e2, false)
  else
    let e3 := e2 ++ scopedTimer "MBKFactorize" o.factorization
    if !o.factorized then (e3, false)
    else
      let e4 := e3 ++ scopedTimer "MBKSolve" o.solution
      if !o.solved then (e4, false)
      else
        let e5 := e4 ++ scopedTimer "PropagateDx" o.propagation
        let e6 := e5 ++ if several then (TimerEvent.opens "UpdateForce" :: (o.force ++ [TimerEvent.closes "UpdateForce"])) ++ [TimerEvent.opens "UpdateResidual", TimerEvent.closes "UpdateResidual"] else []
        (e6 ++ [TimerEvent.opens "UpdateU", TimerEvent.closes "UpdateU"], true)

/-- The loop, `SofaCaribou/Ode/NewtonRaphsonSolver.cpp:248-398`: the events, `n_it` and `converged`. -/
def newtonTimedLoop (several : Bool) (o : ℕ → NewtonTimed) : ℕ → ℕ → List TimerEvent × ℕ × Bool
  | n, 0 => ([], n, false)
  | n, left + 1 =>
    let b := newtonTimedBody several (o n)
    let step := scopedTimer "NewtonStep" b.1
    if !b.2 then (step, n, false)
    else if (o n).stops then (step, n + 1, (o n).converges)
    else
      let r := newtonTimedLoop several o (n + 1) left
      (step ++ r.1, r.2)

/-- `NewtonRaphsonSolver::solve`, `SofaCaribou/Ode/NewtonRaphsonSolver.cpp:176-417`, for a solver with the given class name; `first` are the events of the assembly of the first residual, `atRest` says whether
it is under the absolute threshold. -/
def newtonTimed (w : ℕ) (className : String) (first : List TimerEvent) (atRest : Bool) (o : ℕ → NewtonTimed) (maxIterations : ℕ) : List TimerEvent :=
  let r := if atRest then ([], 0, true) else newtonTimedLoop (decide (1 < maxIterations)) o 0 maxIterations
  scopedTimer (className ++ "::Solve") ((TimerEvent.opens "ComputeForce" :: (first ++ [TimerEvent.closes "ComputeForce"])) ++ r.1 ++
    [TimerEvent.value "has_converged" (if r.2.2 then 1 else 0), TimerEvent.value "nb_iterations" (unsignedSucc w (unsignedPred w r.2.1))])

/-- What happens in an iteration of the legacy solver. -/
structure LegacyTimed where
  stops : Bool
  converges : Bool
  build : List TimerEvent
  solution : List TimerEvent
  propagation : List TimerEvent
  force : List TimerEvent

/-- The loop of the legacy solver, `SofaCaribou/Ode/LegacyStaticODESolver.cpp:170-313`. -/
def legacyTimedLoop (o : ℕ → LegacyTimed) : ℕ → ℕ → List TimerEvent × ℕ × Bool
  | n, 0 => ([], n, false)
  | n, left + 1 =>
    let step := TimerEvent.opens "NewtonStep" :: ((TimerEvent.opens "MBKBuild" :: ((o n).build ++ [TimerEvent.closes "MBKBuild"])) ++
      (TimerEvent.opens "MBKSolve" :: ((o n).solution ++ [TimerEvent.closes "MBKSolve"])) ++ (o n).propagation ++
      (TimerEvent.opens "ComputeForce" :: ((o n).force ++ [TimerEvent.closes "ComputeForce"])) ++ [TimerEvent.closes "NewtonStep"])
    if (o n).stops then (step, n + 1, (o n).converges)
    else
      let r := legacyTimedLoop o (n + 1) left
      (step ++ r.1, r.2)

/-- `LegacyStaticODESolver::solve`, `SofaCaribou/Ode/LegacyStaticODESolver.cpp:130-328`. -/
def legacyTimed (w : ℕ) (first : List TimerEvent) (atRest : Bool) (o : ℕ → LegacyTimed) (maxIterations : ℕ) : List TimerEvent :=
  let r := if atRest then ([], 0, true) else legacyTimedLoop o 0 maxIterations
  TimerEvent.opens "StaticODESolver::Solve" :: ((TimerEvent.opens "ComputeForce" :: (first ++ [TimerEvent.closes "ComputeForce"])) ++ r.1 ++
    [TimerEvent.value "has_converged" (if r.2.2 then 1 else 0), TimerEvent.value "nb_iterations" (unsignedSucc w (unsignedPred w r.2.1)), TimerEvent.closes "StaticODESolver::Solve"])

/-- `HyperelasticForcefield::initialize_elements`, `SofaCaribou/Forcefield/HyperelasticForcefield.inl:343-388`: the function is left in line 350 without a mechanical object. -/
def initializeTimer (hasState : Bool) : List TimerEvent :=
  TimerEvent.opens "HyperelasticForcefield::initialize_elements" :: if !hasState then [] else [TimerEvent.closes "HyperelasticForcefield::initialize_elements"]

/-- `TractionForcefield::initialize_elements`, `SofaCaribou/Forcefield/TractionForcefield.inl:200-243`, with a scoped timer. -/
def tractionInitializeTimer (_hasState : Bool) : List TimerEvent := scopedTimer "TractionForcefield::initialize_elements" []

end Caribou
