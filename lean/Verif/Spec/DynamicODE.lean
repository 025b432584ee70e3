import Verif.Model.DynamicODE
import Verif.Spec.BackwardEuler
import Verif.Spec.StaticODE

/-!
# Specification vocabulary for time steps with constraints and mappings
-/

set_option autoImplicit false

namespace Caribou.Spec

variable {K ι κ : Type*} [Field K] [Fintype ι] [Fintype κ]

/-- The scene is linear. -/
structure IsLinearDynamic (S : DynScene K ι κ) : Prop where
  force : ∀ x u, S.force (x + u) = S.force x + (S.stiff x).mulVec u
  map : ∀ x u, S.map (x + u) = S.map x + S.J.mulVec u
  mappedForce : ∀ y u, S.mappedForce (y + u) = S.mappedForce y + (S.mappedStiff y).mulVec u
  stiff : ∀ x u, S.stiff (x + u) = S.stiff x
  mappedStiff : ∀ y u, S.mappedStiff (y + u) = S.mappedStiff y

/-- The mapped object damps its motion with the Rayleigh stiffness, its velocity being the image of `v0 + h a`. -/
def MappedDamping (p : BEParams K) (S : DynScene K ι κ) : Prop :=
  ∀ s, S.mappedMBK p s = p.rayleighStiffness • (S.mappedStiff s.y).mulVec (S.J.mulVec (s.v0 + p.h • s.a))

/-- The equation of motion on the free degrees of freedom: forces, damping, inertia and transported forces of the mapped object
balance. -/
def InMotionBalance (p : BEParams K) (S : DynScene K ι κ) (x v a : ι → K) : Prop :=
  ∀ i, S.fixed i = false → unbalanced p S.toBEScene x v a i +
    (∑ k, S.J k i * (S.mappedForce (S.map x) k + p.rayleighStiffness * (S.mappedStiff (S.map x)).mulVec (S.J.mulVec v) k)) = 0

/-- The settings of one time step of a simulation: its step and damping, the scene, and the state of the solver. -/
structure TimeStep (K ι κ : Type*) where
  newton : NewtonParams K
  params : BEParams K
  scene : DynScene K ι κ
  solver : NewtonState K

end Caribou.Spec
