import Verif.Model.TimerEvents
import Verif.Model.DirectTable

/-!
# The column `Nb of CG iterations` of the benchmark of the conjugate gradients

`extract_newton_steps` of `Benchmark/SofaCaribou/Solver/beam_cg_linear_solvers.py`, applied to the records which the timer makes of the calls of the
solvers (C156).  `none` is a Python exception.  The records of the solvers of SOFA are left out (`other`).
-/

set_option autoImplicit false

namespace Caribou

/-- The steps and the values which are directly in the record of a step, for the calls made within it: `Timer.getRecords` has a key for each of them.
The first argument counts the steps which are open. -/
def topEvents : ℕ → List TimerEvent → List TimerEvent
  | _, [] => []
  | 0, .opens n :: l => .opens n :: topEvents 1 l
  | d + 1, .opens _ :: l => topEvents (d + 2) l
  | d, .closes _ :: l => topEvents (d - 1) l
  | 0, .value m n :: l => .value m n :: topEvents 0 l
  | d + 1, .value _ _ :: l => topEvents (d + 1) l

/-- The calls made within a step with the given name: `record[name]`.  The second argument counts the steps which are open, the third says whether
the outermost one is the one which is asked for. -/
def recordBody (name : String) : ℕ → Bool → List TimerEvent → List TimerEvent
  | _, _, [] => []
  | 0, _, .opens n :: l => recordBody name 1 (decide (n = name)) l
  | d + 1, b, .opens n :: l => (if b then [.opens n] else []) ++ recordBody name (d + 2) b l
  | 0, b, .closes _ :: l => recordBody name 0 b l
  | 1, _, .closes _ :: l => recordBody name 0 false l
  | d + 2, b, .closes n :: l => (if b then [.closes n] else []) ++ recordBody name (d + 1) b l
  | d, b, .value m n :: l => (if b then [.value m n] else []) ++ recordBody name d b l

/-- `name in record`, for a step. -/
def keyIn (name : String) (top : List TimerEvent) : Bool := decide (TimerEvent.opens name ∈ top)

/-- `record[name]` for a value: the last one which was set. -/
def topValue (name : String) (top : List TimerEvent) : Option ℕ :=
  top.reverse.findSome? fun e => match e with
    | .value m n => if m = name then some n else none
    | _ => none

/-- The cell `Nb of CG iterations` for the calls made within `MBKSolve`, `beam_cg_linear_solvers.py:49,63-92`; `other` is what the branches of the solvers of
SOFA (63-68) do.  A key which was opened once gives a dictionary instead of a list (documented behaviour of `Timer.getRecords`), and
`cg_iteration['total_time']` (79, 91) raises for its keys, which are strings. -/
def cgCountCell (other : Option TableCell) (solution : List TimerEvent) : Option TableCell :=
  let top := topEvents 0 solution
  if keyIn "PCGLinearSolver::solve" top || keyIn "CG-Solve" top then other
  else if keyIn "ConjugateGradient::solve" top then
    let inside := topEvents 0 (recordBody "ConjugateGradient::solve" 0 false solution)
    match topValue "nb_iterations" inside with
    | none => none
    | some n => if inside.count (.opens "cg_iteration") = 1 then none else some (.number n)
  else if top.count (.opens "HyperelasticForcefield::addDForce") = 1 then none
  else some .dash

/-- The same cell in `scenes/conjugate_gradient_benchmark.py:51,60-91`, which also looks for the value directly in `MBKSolve`; `other` stands for the
branches of the solvers of SOFA (60-65) and what follows them. -/
def sceneCountCell (other : Option TableCell) (solution : List TimerEvent) : Option TableCell :=
  let top := topEvents 0 solution
  if keyIn "PCGLinearSolver::solve" top || keyIn "CG-Solve" top then other
  else
    let inside := if keyIn "ConjugateGradient::solve" top then topEvents 0 (recordBody "ConjugateGradient::solve" 0 false solution) else top
    match topValue "nb_iterations" inside with
    | some n => if inside.count (.opens "cg_iteration") = 1 then none else some (.number n)
    | none => if inside.count (.opens "HyperelasticForcefield::addDForce") = 1 then none else some .dash

/-- How the conjugate gradient is called within `MBKSolve`: by `StaticODESolver`, which calls `solve` of the linear solver
(`NewtonRaphsonSolver.cpp:298`), or by the legacy static solver, through `solveSystem`, without a preconditioner or with one. -/
inductive CGSolveKind where
  | newton
  | legacyNone
  | legacyOther
deriving DecidableEq

/-- The calls of the timer within `MBKSolve`: `ConjugateGradientSolver.inl:158-167`, `EigenSolver.inl:198-205`.  `first` are the calls of the force fields for
the first residual (`ConjugateGradientSolver.inl:222-226`), `inner` those in the iterations; products with the assembled matrix make none. -/
def solveEvents (kind : CGSolveKind) (w : ℕ) (small : ℕ → Bool) (first : List TimerEvent) (inner : ℕ → List TimerEvent) (maxIterations : ℕ) : List TimerEvent :=
  match kind with
  | .newton => cgTimer w small (fun _ => []) maxIterations
  | .legacyNone => scopedTimer "ConjugateGradient::solve" (first ++ cgTimer w small inner maxIterations)
  | .legacyOther => scopedTimer "EigenSolver::solve" (cgTimer w small (fun _ => []) maxIterations)

end Caribou
