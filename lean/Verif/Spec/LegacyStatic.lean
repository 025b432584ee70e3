import Verif.Model.LegacyStatic
import Verif.Spec.Newton

/-!
# Specification vocabulary for the legacy static solver
-/

set_option autoImplicit false

namespace Caribou.Spec

variable {σ V K : Type*} [Field K] [LinearOrder K]

/-- `j` follows `i`: the increment solves the tangent system at `i` for the forces of `i`, from the guess `i.increment` (warm start)
or zero, and is applied to the positions. -/
structure StaticAdvance (p : LegacyParams K) (env : LegacyEnv σ V K) (i j : Iterate σ V) : Prop where
  solved : j.increment = env.solve i.world (if p.warm then i.increment else env.zero) i.force
  moved : j.world = env.propagate i.world j.increment
  force : j.force = env.force j.world
  total : j.total = env.add i.total j.increment

/-- The solver gives up at an iterate: not-a-number, or no displacement. -/
def StaticGivesUp (p : LegacyParams K) (env : LegacyEnv σ V K) (j : Iterate σ V) : Prop :=
  env.norm2 j.force = none ∨ env.norm2 j.increment = none ∨ Below (env.norm2 j.total) p.eps

/-- The two criteria at the last of a path of iterates: correction relative to the total displacement, residual relative to the
residual of the first iterate. -/
def StaticCriterion (p : LegacyParams K) (env : LegacyEnv σ V K) (path : List (Iterate σ V)) (j : Iterate σ V) : Prop :=
  (0 < p.correction ∧ RatioBelow (env.norm2 j.increment) (env.norm2 j.total) p.correction) ∨
  (0 < p.residual ∧ RatioBelow (env.norm2 j.force) (path.head?.bind fun f => env.norm2 f.force) p.residual)

/-- The residual of the last iterate of a path is larger than the one before. -/
def Grew (env : LegacyEnv σ V K) (path : List (Iterate σ V)) : Prop :=
  ∃ before i j, path = before ++ [i, j] ∧ ∃ x y, env.norm2 i.force = some x ∧ env.norm2 j.force = some y ∧ x < y

/-- The iterations stop after a path. -/
def StaticStops (p : LegacyParams K) (env : LegacyEnv σ V K) (path : List (Iterate σ V)) : Prop :=
  ∃ l, path.getLast? = some l ∧
    (StaticGivesUp p env l ∨ StaticCriterion p env path l ∨ (p.growing = true ∧ Grew env path))

end Caribou.Spec
