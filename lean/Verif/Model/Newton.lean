import Mathlib.Algebra.Order.Field.Basic

/-!
# Model of `NewtonRaphsonSolver`

Everything the solver asks from the rest of the scene is a parameter: the functions of `NewtonEnv` are arbitrary.  `double`
is an arbitrary ordered field `K`; a number that may be not-a-number is an `Option K` (`none`: not-a-number).  Rounding,
infinities, timers and messages are not modelled.  The pattern strategy is one of the four values of the enumeration.
-/

set_option autoImplicit false

namespace Caribou

/-- `PatternAnalysisStrategy`, `NewtonRaphsonSolver.h:59-64`. -/
inductive PatternStrategy
  | never
  | beginningOfSimulation
  | beginningOfTimeStep
  | always
  deriving DecidableEq, Repr

/-- The data of the component read at `NewtonRaphsonSolver.cpp:118-122`, and the constant `EPSILON` of `config.h.in`. -/
structure NewtonParams (K : Type*) where
  iterations : ℕ
  correction : K
  residual : K
  absolute : K
  eps : K
  strategy : PatternStrategy

/-- What the solver calls, on a world `σ` (the mechanical objects and the linear solver) and vectors `V`:
`assemble_rhs_vector`, `assemble_system_matrix` followed by `set_system_matrix`, `analyze_pattern`, `factorize`, `solve` of the
linear solver (`none`: it returned false), `propagate_solution_increment`; the zero vector, addition of vectors and the
squared norm.  `NewtonRaphsonSolver.h:114-165`, `Solver/LinearSolver.h`. -/
structure NewtonEnv (σ V K : Type*) where
  rhs : σ → σ × V
  matrix : σ → σ
  analyze : σ → σ × Bool
  factorize : σ → σ × Bool
  solve : σ → V → σ × Option V
  propagate : σ → V → σ
  zero : V
  add : V → V → V
  norm2 : V → Option K

/-- The calls made to the linear solver, with the returned flag; `matrix` is the assembly of a system matrix. -/
inductive NewtonCall
  | matrix
  | analyze (ok : Bool)
  | factorize (ok : Bool)
  | solve (ok : Bool)
  deriving DecidableEq, Repr

/-- The members of the component that live across calls: `p_has_already_analyzed_the_pattern`, `d_converged`,
`p_squared_residuals`, `p_squared_initial_residual`, `NewtonRaphsonSolver.h:182-208`. -/
structure NewtonState (K : Type*) where
  analyzed : Bool
  converged : Bool
  residuals : List (Option K)
  initialResidual : Option K

/-- The variables of the loop, `NewtonRaphsonSolver.cpp:159-164`. -/
structure NewtonLoop (σ V K : Type*) where
  world : σ
  F : V
  U : V
  R2 : Option K
  analyzed : Bool
  residuals : List (Option K)
  converged : Bool
  diverged : Bool
  calls : List NewtonCall

/-- The comparison `a < b` of floating point numbers: false when one of them is not-a-number. -/
def ltNan {K : Type*} [LT K] [DecidableLT K] : Option K → Option K → Bool
  | some a, some b => decide (a < b)
  | _, _ => false

/-- The comparison `a <= b` of floating point numbers. -/
def leNan {K : Type*} [LE K] [DecidableLE K] : Option K → Option K → Bool
  | some a, some b => decide (a ≤ b)
  | _, _ => false

variable {σ V K : Type*} [Field K] [LinearOrder K]

/-- A product with a number that may be not-a-number. -/
def mulNan (a : K) (b : Option K) : Option K := b.map fun b => a * b

/-- The condition of `NewtonRaphsonSolver.cpp:263-271`. -/
def mustAnalyze (p : NewtonParams K) (analyzed : Bool) : Bool :=
  p.strategy != .never && (p.strategy == .always ||
    ((p.strategy == .beginningOfTimeStep || p.strategy == .beginningOfSimulation) && !analyzed))

/-- Parts 8 to 10 of one iteration, `NewtonRaphsonSolver.cpp:325-402`: `s` already holds the updated world, force and
residual. -/
def newtonCheck (p : NewtonParams K) (env : NewtonEnv σ V K) (s : NewtonLoop σ V K) (dx : V) : NewtonLoop σ V K :=
  let U := env.add s.U dx
  let dx2 := env.norm2 dx
  let du2 := env.norm2 U
  let residuals := s.residuals ++ [s.R2]
  let s := { s with U := U, residuals := residuals }
  if s.R2.isNone || dx2.isNone || ltNan du2 (some p.eps) then { s with diverged := true }
  else if 0 < p.correction && ltNan dx2 (mulNan (p.correction * p.correction) du2) then { s with converged := true }
  else if 0 < p.residual && ltNan s.R2 (mulNan (p.residual * p.residual) residuals.head?.join) then
    { s with converged := true }
  else if 0 < p.absolute && ltNan s.R2 (some (p.absolute * p.absolute)) then { s with converged := true }
  else s

/-- Parts 1 and 2 of one iteration, `NewtonRaphsonSolver.cpp:252-283`: assembly of the matrix and analysis of its pattern. -/
def newtonAssemble (p : NewtonParams K) (env : NewtonEnv σ V K) (s : NewtonLoop σ V K) : NewtonLoop σ V K :=
  let w := env.matrix s.world
  if mustAnalyze p s.analyzed then
    let a := env.analyze w
    { s with world := a.1, calls := s.calls ++ [NewtonCall.matrix, NewtonCall.analyze a.2]
             analyzed := if a.2 then true else s.analyzed, diverged := !a.2 }
  else { s with world := w, calls := s.calls ++ [NewtonCall.matrix] }

/-- Parts 3 to 10 of one iteration, `NewtonRaphsonSolver.cpp:285-402`. -/
def newtonCorrect (p : NewtonParams K) (env : NewtonEnv σ V K) (s : NewtonLoop σ V K) : NewtonLoop σ V K :=
  let f := env.factorize s.world
  if f.2 then
    match env.solve f.1 s.F with
    | (w, none) =>
      { s with world := w, calls := s.calls ++ [NewtonCall.factorize true, NewtonCall.solve false], diverged := true }
    | (w, some dx) =>
      let w := env.propagate w dx
      let s := { s with world := w, calls := s.calls ++ [NewtonCall.factorize true, NewtonCall.solve true] }
      if 1 < p.iterations then
        newtonCheck p env { s with world := (env.rhs w).1, F := (env.rhs w).2, R2 := env.norm2 (env.rhs w).2 } dx
      else newtonCheck p env s dx
  else { s with world := f.1, calls := s.calls ++ [NewtonCall.factorize false], diverged := true }

/-- One iteration of the loop, `NewtonRaphsonSolver.cpp:248-403`. -/
def newtonIteration (p : NewtonParams K) (env : NewtonEnv σ V K) (s : NewtonLoop σ V K) : NewtonLoop σ V K :=
  let s := newtonAssemble p env s
  if s.diverged then s else newtonCorrect p env s

/-- The loop, `NewtonRaphsonSolver.cpp:248`, with `fuel = newton_iterations - n_it`.  A `break` always comes with `converged`
or `diverged`. -/
def newtonLoop (p : NewtonParams K) (env : NewtonEnv σ V K) : ℕ → NewtonLoop σ V K → NewtonLoop σ V K
  | 0, s => s
  | fuel + 1, s =>
    if s.converged then s
    else
      let s := newtonIteration p env s
      if s.diverged then s else newtonLoop p env fuel s

/-- `solve`, `NewtonRaphsonSolver.cpp:73-417`; `valid` is the value of `has_valid_linear_solver()` (80).  Returns the component,
the world and the calls made to the linear solver. -/
def newtonSolve (p : NewtonParams K) (env : NewtonEnv σ V K) (valid : Bool) (c : NewtonState K) (w : σ) :
    NewtonState K × σ × List NewtonCall :=
  if !valid then (c, w, [])
  else
    let analyzed := if p.strategy = .beginningOfTimeStep then false else c.analyzed
    let F := (env.rhs w).2
    let R2 := env.norm2 F
    let converged := decide (0 < p.absolute) && leNan R2 (some (p.absolute * p.absolute))
    let s := newtonLoop p env p.iterations
      { world := (env.rhs w).1, F := F, U := env.zero, R2 := R2, analyzed := analyzed, residuals := [], converged := converged
        diverged := false, calls := [] }
    ({ analyzed := s.analyzed, converged := s.converged, residuals := s.residuals, initialResidual := R2 }, s.world, s.calls)

/-- `init` and `reset`, `NewtonRaphsonSolver.cpp:419-420,472-474`: the search of a linear solver of `init` only decides `valid`. -/
def newtonReset (c : NewtonState K) : NewtonState K := { c with analyzed := false }

/-- A component just built: `NewtonRaphsonSolver.h:205-208`, `NewtonRaphsonSolver.cpp:58-59`. -/
def newtonFresh : NewtonState K := { analyzed := false, converged := false, residuals := [], initialResidual := some 0 }

end Caribou
