import Verif.Model.StaticODE

/-!
# Specification vocabulary for static solves
-/

set_option autoImplicit false

namespace Caribou.Spec

variable {K ι κ : Type*} [Field K] [Fintype ι] [Fintype κ]

/-- All forces on the free degrees of freedom at positions `x` vanish, the forces on the mapped object being transported by the
transposed Jacobian. -/
def InEquilibrium (S : StaticScene K ι κ) (x : ι → K) : Prop :=
  ∀ i, S.fixed i = false → S.force x i + (∑ k, S.J k i * S.mappedForce (S.map x) k) = 0

/-- The scene is linear: all forces are affine functions of the positions with the stated derivatives, and so is the mapping. -/
structure IsLinearStatic (S : StaticScene K ι κ) : Prop where
  force : ∀ x u, S.force (x + u) = S.force x + (S.stiff x).mulVec u
  map : ∀ x u, S.map (x + u) = S.map x + S.J.mulVec u
  mappedForce : ∀ y u, S.mappedForce (y + u) = S.mappedForce y + (S.mappedStiff y).mulVec u
  stiff : ∀ x u, S.stiff (x + u) = S.stiff x
  mappedStiff : ∀ y u, S.mappedStiff (y + u) = S.mappedStiff y

/-- The mapped object does not depend on fixed degrees of freedom. -/
def MapsFreeOnly (S : StaticScene K ι κ) : Prop := ∀ k i, S.fixed i = true → S.J k i = 0

/-- The linear solver only returns solutions. -/
def SolvesExactly (solver : Matrix ι ι K → (ι → K) → Option (ι → K)) : Prop :=
  ∀ A f u, solver A f = some u → A.mulVec u = f

/-- It finds one for every matrix with an inverse. -/
def SolvesRegular [DecidableEq ι] (solver : Matrix ι ι K → (ι → K) → Option (ι → K)) : Prop :=
  ∀ A f, IsUnit A → ∃ u, solver A f = some u

end Caribou.Spec
