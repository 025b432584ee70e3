import Mathlib.Analysis.InnerProductSpace.PiL2
import Mathlib.LinearAlgebra.Matrix.Notation

/-!
# Specification vocabulary for unstrained meshes
-/

set_option autoImplicit false

namespace Caribou.Spec

/-- Two maps with Jacobians `A` and `B` measure the same lengths and angles around a point. -/
def SameMetric (A B : Matrix (Fin 3) (Fin 3) ℝ) : Prop := ∀ u v, (A.mulVec u) ⬝ᵥ (A.mulVec v) = (B.mulVec u) ⬝ᵥ (B.mulVec v)

/-- The squared distance of two points. -/
def sqDist (a b : Fin 3 → ℝ) : ℝ := ∑ k, (a k - b k) ^ 2

end Caribou.Spec
