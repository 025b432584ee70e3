import Verif.Model.BackwardEuler

/-!
# Specification vocabulary for the backward Euler scheme

The equations of the documentation (`BackwardEulerODESolver.h:16-92`) with `R - P = -force` and `K = -stiff`.
-/

set_option autoImplicit false

namespace Caribou.Spec

variable {K ι : Type*} [Field K] [Fintype ι]

/-- The total damping matrix `C + r_m M + r_k K` at positions `x`. -/
def damping (p : BEParams K) (S : BEScene K ι) (x : ι → K) : Matrix ι ι K :=
  S.B + p.rayleighMass • S.M - p.rayleighStiffness • S.stiff x

/-- What the forces leave unbalanced for an acceleration, velocity and position: `P - R(x) - C v - M a`. -/
def unbalanced (p : BEParams K) (S : BEScene K ι) (x v a : ι → K) : ι → K :=
  S.force x - (damping p S x).mulVec v - S.M.mulVec a

/-- `(x1, v1)` follows `(x0, v0)` by the backward Euler scheme with acceleration `a`. -/
structure IsBackwardEulerStep (p : BEParams K) (S : BEScene K ι) (x0 v0 x1 v1 a : ι → K) : Prop where
  velocity : v1 = v0 + p.h • a
  position : x1 = x0 + p.h • v1
  balance : unbalanced p S x1 v1 a = 0

/-- The forces are linear: `f(x) = P + K x`, with a constant stiffness matrix. -/
structure IsLinear (S : BEScene K ι) (P : ι → K) (A : Matrix ι ι K) : Prop where
  force : ∀ x, S.force x = P + A.mulVec x
  stiff : ∀ x, S.stiff x = A

/-- Twice the mechanical energy of a linear scene with mass `M` and stiffness `A` (positive definite sign). -/
def energy2 (M A : Matrix ι ι K) (x v : ι → K) : K := dotProduct v (M.mulVec v) + dotProduct x (A.mulVec x)

end Caribou.Spec
