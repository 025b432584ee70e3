import Verif.Model.Newton
import Mathlib.Data.List.Chain

/-!
# Specification vocabulary for the Newton-Raphson solver

Newton iterates as a relation, without any control flow of the code: which world follows which, given what the force
fields and the linear solver do.
-/

set_option autoImplicit false

namespace Caribou.Spec

variable {σ V K : Type*} [Field K] [LinearOrder K]

/-- An iterate: the world just after the positions were updated, the residual force there, the total and the last
increment. -/
structure Iterate (σ V : Type*) where
  world : σ
  force : V
  total : V
  increment : V

/-- The iterate before any iteration. -/
def Iterate.start (env : NewtonEnv σ V K) (w : σ) : Iterate σ V := ⟨w, (env.rhs w).2, env.zero, env.zero⟩

/-- The system assembled at world `w` is solved for the right-hand side `f`: its pattern is possibly analysed, it is
factorised, and the linear solver returns `dx`. -/
def Solves (env : NewtonEnv σ V K) (w : σ) (f dx : V) (w' : σ) : Prop :=
  ∃ w1 w2, (w1 = w ∨ env.analyze w = (w1, true)) ∧ env.factorize w1 = (w2, true) ∧ env.solve w2 f = (w', some dx)

/-- `j` follows `i`: the system assembled at `i` was solved for the residual force of `i`, and the solution propagated. -/
structure Advance (env : NewtonEnv σ V K) (i j : Iterate σ V) : Prop where
  solved : ∃ w, Solves env (env.matrix (env.rhs i.world).1) i.force j.increment w ∧ j.world = env.propagate w j.increment
  force : j.force = (env.rhs j.world).2
  total : j.total = env.add i.total j.increment

/-- The linear solver fails on the system assembled at `i`. -/
def Fails (env : NewtonEnv σ V K) (i : Iterate σ V) : Prop :=
  let w := env.matrix (env.rhs i.world).1
  (env.analyze w).2 = false ∨ ∃ w1, (w1 = w ∨ env.analyze w = (w1, true)) ∧
    ((env.factorize w1).2 = false ∨ (env.solve (env.factorize w1).1 i.force).2 = none)

/-- A squared norm, which may be not-a-number, is a number below a bound. -/
def Below (a : Option K) (b : K) : Prop := ∃ x, a = some x ∧ x < b

/-- The ratio of the norms of two vectors is below a threshold: `|u| < t |v|`, on squared norms. -/
def RatioBelow (a b : Option K) (t : K) : Prop := ∃ x y, a = some x ∧ b = some y ∧ x < t ^ 2 * y

/-- The stopping criteria evaluated at an iterate, with reference squared residual `first` for the relative one: correction
ratio, residual ratio, absolute residual; a criterion with a threshold which is not positive is disabled. -/
def Criterion (p : NewtonParams K) (env : NewtonEnv σ V K) (first : Option K) (j : Iterate σ V) : Prop :=
  (0 < p.correction ∧ RatioBelow (env.norm2 j.increment) (env.norm2 j.total) p.correction) ∨
  (0 < p.residual ∧ RatioBelow (env.norm2 j.force) first p.residual) ∨
  (0 < p.absolute ∧ Below (env.norm2 j.force) (p.absolute ^ 2))

/-- The solver gives up at an iterate: a norm is not-a-number or the total increment is numerically zero. -/
def GivesUp (p : NewtonParams K) (env : NewtonEnv σ V K) (j : Iterate σ V) : Prop :=
  env.norm2 j.force = none ∨ env.norm2 j.increment = none ∨ Below (env.norm2 j.total) p.eps

/-- A call analyses a pattern. -/
def IsAnalysis : NewtonCall → Bool
  | .analyze _ => true
  | _ => false

/-- The number of analyses of a pattern in a list of calls. -/
def analyses (l : List NewtonCall) : ℕ := (l.filter IsAnalysis).length

/-- The number of assembled systems in a list of calls. -/
def systems (l : List NewtonCall) : ℕ := l.count .matrix

/-- One use of the component: the data and the scene at that time, and whether a linear solver is linked. -/
structure Use (σ V K : Type*) where
  params : NewtonParams K
  env : NewtonEnv σ V K
  valid : Bool
  world : σ

/-- The lists of calls made by successive uses of a component. -/
def history : List (Use σ V K) → NewtonState K → List (List NewtonCall)
  | [], _ => []
  | u :: us, c =>
    (newtonSolve u.params u.env u.valid c u.world).2.2 :: history us (newtonSolve u.params u.env u.valid c u.world).1

end Caribou.Spec
