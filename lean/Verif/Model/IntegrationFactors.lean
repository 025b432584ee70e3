import Verif.Model.LegacyScene

/-!
# The integration factors of `LegacyStaticODESolver`

What the contact solvers of SOFA ask the solver for: how much its inputs and the solution of its linear system affect positions (0), velocities (1) and accelerations (2).  Derivatives are given as `int`;
reading outside of the table is `none`.
-/

set_option autoImplicit false

namespace Caribou

variable {K : Type*} [Field K]

/-- `getIntegrationFactor(inputDerivative, outputDerivative, dt)`, `LegacyStaticODESolver.h:107-119`. -/
def legacyFactor (dt : K) (input output : ℤ) : Option K :=
  if 3 ≤ input ∨ 3 ≤ output then some 0
  else match output, input with
    | 0, 0 => some 1
    | 0, 1 => some dt
    | 0, 2 => some 0
    | 1, 0 => some 0
    | 1, 1 => some 1
    | 1, 2 => some 0
    | 2, 0 => some 0
    | 2, 1 => some 0
    | 2, 2 => some 0
    | _, _ => none

/-- `getSolutionIntegrationFactor(outputDerivative, dt)`, `LegacyStaticODESolver.h:128-135`. -/
def legacySolutionFactor (dt : K) (output : ℤ) : Option K :=
  if 3 ≤ output then some 0
  else match output with
    | 0 => some dt
    | 1 => some 1
    | 2 => some (1 / dt)
    | _ => none

/-- `getPositionIntegrationFactor`, `LegacyStaticODESolver.h:77-85`. -/
def legacyPositionFactor (dt : K) : K := dt

/-- `getVelocityIntegrationFactor`, `LegacyStaticODESolver.h:68-71`. -/
def legacyVelocityFactor : K := 1

/-- The positions and velocities after `solve`, `LegacyStaticODESolver.cpp:56-328`: the argument `vResult` is not used. -/
def legacyMotion {ι κ : Type*} [Fintype ι] [Fintype κ] [DecidableEq ι] [LinearOrder K] (p : LegacyParams K) (S : StaticScene K ι κ) (solver : Matrix ι ι K → (ι → K) → Option (ι → K))
    (dx x v : ι → K) : (ι → K) × (ι → K) :=
  ((legacySolve p (legacyScene S solver) dx ⟨x, S.map x, 0⟩).world.x, v)

end Caribou
