import Verif.Spec.DynamicODE
import Verif.Spec.Settle
import Verif.Spec.CGStatic

/-!
# Specification vocabulary for time steps with the conjugate gradient
-/

set_option autoImplicit false

namespace Caribou.Spec

variable {K ι κ : Type*} [Field K] [Fintype ι] [Fintype κ]

/-- The squared norm of what the equation of motion leaves on the free degrees of freedom, which is zero when `InMotionBalance` holds. -/
def motionResidual (p : BEParams K) (S : DynScene K ι κ) (x v a : ι → K) : K :=
  ∑ i, if S.fixed i then 0 else (unbalanced p S.toBEScene x v a i +
    ∑ k, S.J k i * (S.mappedForce (S.map x) k + p.rayleighStiffness * (S.mappedStiff (S.map x)).mulVec (S.J.mulVec v) k)) ^ 2

/-- The squared norm of the change of the forces on the free degrees of freedom when the scene moves on with its velocities for one time step. -/
def driftForce (p : BEParams K) (S : DynScene K ι κ) (x v : ι → K) : K :=
  ∑ i, if S.fixed i then 0 else (∑ j, forceChange S.atRest x i j * (p.h * v j)) ^ 2

/-- Masses are positive, damping takes energy, and the forces at `x` derive from an energy which no displacement decreases; all this for the free degrees of freedom only. -/
structure MovesStably [LinearOrder K] (p : BEParams K) (S : DynScene K ι κ) (x : ι → K) : Prop where
  step : 0 ≤ p.h
  rayleighMass : 0 ≤ p.rayleighMass
  rayleighStiffness : 0 ≤ p.rayleighStiffness
  mass_symm : ∀ i j, S.fixed i = false → S.fixed j = false → S.M i j = S.M j i
  damping_symm : ∀ i j, S.fixed i = false → S.fixed j = false → S.B i j = S.B j i
  stiff_symm : ∀ i j, S.fixed i = false → S.fixed j = false → forceChange S.atRest x i j = forceChange S.atRest x j i
  mass : ∀ u : ι → K, (∀ i, S.fixed i = true → u i = 0) → u ≠ 0 → 0 < ∑ i, u i * ∑ j, S.M i j * u j
  damping : ∀ u : ι → K, (∀ i, S.fixed i = true → u i = 0) → 0 ≤ ∑ i, u i * ∑ j, S.B i j * u j
  stiff : ∀ u : ι → K, (∀ i, S.fixed i = true → u i = 0) → ∑ i, u i * ∑ j, forceChange S.atRest x i j * u j ≤ 0

end Caribou.Spec
