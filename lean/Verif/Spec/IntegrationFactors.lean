import Verif.Model.IntegrationFactors

/-!
# Specification vocabulary for integration factors
-/

set_option autoImplicit false

namespace Caribou.Spec

/-- The factors `f` (of an input derivative on an output derivative) and `s` (of the solution of the linear system) tell what a step does, which goes from positions `x` and velocities `v` to `x'` and `v'`
with the solution `u`. -/
def TellsStep {K ι : Type*} [Field K] (f : ℤ → ℤ → Option K) (s : ℤ → Option K) (x v u x' v' : ι → K) : Prop :=
  ∃ xx vx ux xv vv uv, f 0 0 = some xx ∧ f 1 0 = some vx ∧ s 0 = some ux ∧ f 0 1 = some xv ∧ f 1 1 = some vv ∧ s 1 = some uv ∧
    (∀ i, x' i = xx * x i + vx * v i + ux * u i) ∧ ∀ i, v' i = xv * x i + vv * v i + uv * u i

end Caribou.Spec
