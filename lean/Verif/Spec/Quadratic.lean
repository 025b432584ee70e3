import Verif.Spec.StaticODE
import Mathlib.Analysis.Calculus.FDeriv.Basic
import Mathlib.Topology.Algebra.Module.FiniteDimension

/-!
# Specification vocabulary for static solves near an equilibrium
-/

set_option autoImplicit false

namespace Caribou.Spec

variable {ι κ : Type*} [Fintype ι] [Fintype κ]

/-- The force on the top level object at positions `x`, including those on the mapped object. -/
def totalForce (S : StaticScene ℝ ι κ) (x : ι → ℝ) : ι → ℝ := fun i => S.force x i + ∑ k, S.J k i * S.mappedForce (S.map x) k

/-- The stiffness at positions `x`, including that of the mapped object. -/
def totalStiff (S : StaticScene ℝ ι κ) (x : ι → ℝ) : Matrix ι ι ℝ := S.stiff x + S.J.transpose * S.mappedStiff (S.map x) * S.J

/-- `z` is an equilibrium. Up to the distance `ρ` from it, the stiffness is the derivative of the force and does not change faster than `l` times the distance. At `z`, every
displacement of the free degrees of freedom creates a force on them. -/
structure RegularEquilibrium (S : StaticScene ℝ ι κ) (z : ι → ℝ) (ρ l : ℝ) : Prop where
  equilibrium : InEquilibrium S z
  derivative : ∀ x, ‖x - z‖ ≤ ρ → HasFDerivAt (totalForce S) (LinearMap.toContinuousLinearMap (totalStiff S x).mulVecLin) x
  lipschitz : ∀ x, ‖x - z‖ ≤ ρ → ∀ y, ‖y - z‖ ≤ ρ → ∀ u, ‖(totalStiff S x).mulVec u - (totalStiff S y).mulVec u‖ ≤ l * ‖x - y‖ * ‖u‖
  regular : ∀ u, (∀ i, S.fixed i = true → u i = 0) → (∀ i, S.fixed i = false → (totalStiff S z).mulVec u i = 0) → u = 0

/-- The same scene with additional forces which do not depend on the positions. -/
def withLoad (S : StaticScene ℝ ι κ) (f : ι → ℝ) : StaticScene ℝ ι κ := { S with force := fun x i => S.force x i + f i }

end Caribou.Spec
