import Verif.Model.Newton

/-!
# Model of `LegacyStaticODESolver`

As for the Newton-Raphson solver, what the solver asks from the scene is a parameter.  Timers, messages, the records of the
inner linear solver, constraint solvers and rounding are not modelled.
-/

set_option autoImplicit false

namespace Caribou

/-- The data of the component, `LegacyStaticODESolver.cpp:32-54`, and the constant `EPSILON`. -/
structure LegacyParams (K : Type*) where
  iterations : ℕ
  correction : K
  residual : K
  growing : Bool
  warm : Bool
  eps : K

/-- What the solver calls, on a world `σ` and vectors `V`: the projected forces (`computeForce`, `projectResponse`, 145-152 and
226-230), the solution of the tangent system for a right-hand side from a first guess (`matrix.solve`, 195-203), the update of
the positions (206-215); the zero vector, addition and the squared norm (`none`: not-a-number). -/
structure LegacyEnv (σ V K : Type*) where
  force : σ → V
  solve : σ → V → V → V
  propagate : σ → V → σ
  zero : V
  add : V → V → V
  norm2 : V → Option K

/-- The variables of the loop, `LegacyStaticODESolver.cpp:109-121`; `n` is `n_it`, `Rn` is `Rn_squared_norm`. -/
structure LegacyLoop (σ V K : Type*) where
  world : σ
  force : V
  dx : V
  U : V
  Rn : Option K
  n : ℕ
  residuals : List (Option K)
  converged : Bool
  diverged : Bool

variable {σ V K : Type*} [Field K] [LinearOrder K]

/-- One iteration of the loop, `LegacyStaticODESolver.cpp:173-311`. -/
def legacyIteration (p : LegacyParams K) (env : LegacyEnv σ V K) (s : LegacyLoop σ V K) : LegacyLoop σ V K :=
  let dx := env.solve s.world s.dx s.force
  let w := env.propagate s.world dx
  let F := env.force w
  let R2 := env.norm2 F
  let U := env.add s.U dx
  let dx2 := env.norm2 dx
  let du2 := env.norm2 U
  let residuals := s.residuals ++ [R2]
  let n := s.n + 1
  let s' : LegacyLoop σ V K :=
    { s with world := w, force := F, dx := dx, U := U, n := n, residuals := residuals }
  if R2.isNone || dx2.isNone || ltNan du2 (some p.eps) then { s' with diverged := true }
  else if 0 < p.correction && ltNan dx2 (mulNan (p.correction * p.correction) du2) then { s' with converged := true }
  else if 0 < p.residual && ltNan R2 (mulNan (p.residual * p.residual) residuals.head?.join) then { s' with converged := true }
  else if p.growing && ltNan s.Rn R2 && decide (1 < n) then { s' with diverged := true }
  else { s' with Rn := R2, dx := if p.warm then dx else env.zero }

/-- The loop, `LegacyStaticODESolver.cpp:170`, with `fuel = newton_iterations - n_it`; a `break` always comes with `converged` or
`diverged`. -/
def legacyLoop (p : LegacyParams K) (env : LegacyEnv σ V K) : ℕ → LegacyLoop σ V K → LegacyLoop σ V K
  | 0, s => s
  | fuel + 1, s =>
    if s.converged then s
    else
      let s := legacyIteration p env s
      if s.converged || s.diverged then s else legacyLoop p env fuel s

/-- The loop before its first iteration, `LegacyStaticODESolver.cpp:83-165`.  `dx` is the member that a former call left. -/
def legacyStart (p : LegacyParams K) (env : LegacyEnv σ V K) (dx : V) (w : σ) : LegacyLoop σ V K :=
  { world := w, force := env.force w, dx := if p.warm then dx else env.zero, U := env.zero, Rn := some 0, n := 0
    residuals := []
    converged := decide (0 < p.residual) && leNan (env.norm2 (env.force w)) (some p.residual)
    diverged := false }

/-- `solve`, `LegacyStaticODESolver.cpp:56-328`.  The observable results are `converged` (the data `converged`), `residuals` and
`world`. -/
def legacySolve (p : LegacyParams K) (env : LegacyEnv σ V K) (dx : V) (w : σ) : LegacyLoop σ V K :=
  legacyLoop p env p.iterations (legacyStart p env dx w)

end Caribou
