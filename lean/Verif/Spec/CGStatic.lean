import Verif.Spec.StaticODE
import Mathlib.Algebra.Order.Field.Basic

/-!
# Specification vocabulary for static solves with the conjugate gradient
-/

set_option autoImplicit false

namespace Caribou.Spec

variable {K ι κ : Type*} [Field K] [Fintype ι] [Fintype κ]

/-- The squared norm of the forces on the free degrees of freedom, which is zero in equilibrium. -/
def outOfBalance (S : StaticScene K ι κ) (x : ι → K) : K :=
  ∑ i, if S.fixed i then 0 else (S.force x i + ∑ k, S.J k i * S.mappedForce (S.map x) k) ^ 2

/-- The change of the force on `i` per unit of displacement of `j`, forces on the mapped object included. -/
def forceChange (S : StaticScene K ι κ) (x : ι → K) (i j : ι) : K := S.stiff x i j + ∑ k, ∑ l, S.J k i * S.mappedStiff (S.map x) k l * S.J l j

/-- Every displacement of the free degrees of freedom is opposed by the forces it creates, and these derive from an energy. -/
structure HeldStable [LinearOrder K] (S : StaticScene K ι κ) (x : ι → K) : Prop where
  symm : ∀ i j, S.fixed i = false → S.fixed j = false → forceChange S x i j = forceChange S x j i
  opposed : ∀ u : ι → K, (∀ i, S.fixed i = true → u i = 0) → u ≠ 0 → ∑ i, u i * ∑ j, forceChange S x i j * u j < 0

end Caribou.Spec
